{"id": "C01", "title": "run()/run_single() lifecycle", "statement": "For a model with n time steps, any sequence of run() and run_single() calls processes the dates in order, each at most once; run() on a fresh model processes exactly all n dates; run() is rejected after any earlier run() or run_single(); run_single() after the last date raises 'Model run already finished' and processes nothing; n calls of run_single() process the same trace as one run().", "quantifier": "every number of time steps and every finite sequence of run/run_single calls", "why_tests_cant": "tests exercise a handful of call orders on one short run; the claim ranges over all call histories", "anchors": ["openamundsen/model.py: OpenAmundsen.run, OpenAmundsen.run_single"]}
{"id": "C02", "title": "Thread count is restored after a time step", "statement": "If a numba thread count is configured, then after every run_single() call the process-wide numba thread count is the one before the call. (False of the code for the call that raises 'Model run already finished'.) The configured count never exceeds the number of threads available and, for 'auto', is 1, 2 or 4 by grid size.", "quantifier": "every configuration value, grid size, available thread count and call history", "why_tests_cant": "the failing branch leaves process-global state behind and is invisible in single-model tests", "anchors": ["openamundsen/model.py: OpenAmundsen.run_single, OpenAmundsen._resolve_numba_threads"]}
{"id": "C03", "title": "Time axis of an accepted configuration", "statement": "A configuration is accepted by the date checks iff start <= end and end is start plus a whole number of time steps; the model dates are then exactly start, start+dt, ..., end. If end_date is given without a time of day and dt < 1 day, the run ends one time step before midnight of the following day, so if dt divides 24 h and the start is at midnight the configuration is accepted and every day from start to end has exactly 24h/dt time steps.", "quantifier": "every start date, end date and positive time step", "why_tests_cant": "the acceptance check is an arithmetic condition over unbounded dates and steps", "anchors": ["openamundsen/conf.py: _parse_end_date, validate_config", "openamundsen/model.py: OpenAmundsen._prepare_time_steps"]}
{"id": "C04", "title": "First/last-of-period flags of a time step", "statement": "strict_first_of_day (month, year) is true exactly if every possible earlier time step (date minus a multiple of the time step) lies in a different calendar day (month, year), likewise strict_last_of_* for later ones; first_of_*/last_of_* are true exactly if no earlier/later date of the run lies in the same calendar period. Holds for time steps up to 27 days (day) and up to 334 days (month), and for any step (year); fails for longer steps, since only the day-of-month / month-of-year numbers are compared.", "quantifier": "every date and every time step length", "why_tests_cant": "calendar arithmetic over all dates; the failing step lengths are legal configurations that no test uses", "anchors": ["openamundsen/model.py: OpenAmundsen.timestep_props"]}
{"id": "C05", "title": "Scattering a local mask to the grid", "statement": "global_mask(mask, sel) is true exactly at the grid cells that are the i-th selected cell in row-major order for some i with mask[i] true; reading it back on the selected cells gives the mask; it is false outside the selection; a mask whose length differs from the number of selected cells is rejected.", "quantifier": "every grid shape, selection and mask", "why_tests_cant": "index bookkeeping for arbitrary sparse selections", "anchors": ["openamundsen/model.py: OpenAmundsen.global_mask, OpenAmundsen.roi_mask_to_global", "openamundsen/util.py: ModelGrid.prepare_roi_coordinates"]}
{"id": "C06", "title": "State reset keeps retained variables only", "statement": "reset() leaves every variable declared with retain unchanged and fills every other variable with the no-data value of its type (a non-retained bool variable makes it raise); it is idempotent and never adds or removes variables. Consequence for glaciers: with reset_state_variables enabled the glacier ID field is all zero from the first time step on, so the geometry update never changes the ice thickness.", "quantifier": "every set of variables, flags and array contents", "why_tests_cant": "holds over all declarations and interleavings of resets with time steps", "anchors": ["openamundsen/statevars.py: StateVariableManager.reset", "openamundsen/modules/glacier/glaciermodel.py: GlacierModel.__init__, GlacierModel._update_geometry"]}
{"id": "C07", "title": "State variable categories", "statement": "After any sequence of add_category calls the categories are sorted, free of duplicates, and consist of exactly the initial and the accepted names; a name that is already present or is not an identifier is rejected and changes nothing. (Exceptions of the code: the name 'categories' raises after it was added, the name '_categories' destroys the list.) parse() reads a key as a pair exactly if it is '<category>.<variable>' without further dots, as a category exactly if it has no dot, and rejects keys with several dots.", "quantifier": "every sequence of category names", "why_tests_cant": "ranges over call histories", "anchors": ["openamundsen/statevars.py: StateVariableManager.add_category, StateVariableManager.parse"]}
{"id": "C08", "title": "Parallel kernels are independent of schedule and confined to the ROI", "statement": "Running a per-pixel kernel over the ROI gives the same grid for every order and every interleaving of the pixels' individual memory steps; every ROI pixel ends with the kernel applied once to its old value and every pixel outside the ROI is unchanged.", "quantifier": "every grid, ROI, kernel and thread schedule", "why_tests_cant": "data-race freedom must hold for every schedule; a test sees one schedule", "anchors": ["openamundsen/modules/snow/multilayermodel.py: _melt, _sublimation, _runoff, _heat_conduction, _update_layers", "openamundsen/modules/snow/snow.py: _compaction_anderson, _compaction_empirical", "openamundsen/modules/soil/soil.py: _soil_properties, _soil_heat_flux", "openamundsen/interpolation.py: _idw"]}
{"id": "C09", "title": "Snowfall fraction", "statement": "The snowfall fraction lies in [0, 1], is non-increasing in temperature, is 1 at or below threshold - range/2 and 0 at or above threshold + range/2 (for range 0: 1 below and 0 from the threshold on); a negative range is rejected.", "quantifier": "every temperature, threshold and range", "why_tests_cant": "continuous domain including the degenerate range", "anchors": ["openamundsen/meteo/atmosphere.py: precipitation_phase"]}
{"id": "C10", "title": "Precipitation is split without loss", "statement": "In every time step and pixel, snowfall + rainfall = precipitation, both non-negative when precipitation is; a pixel whose phase temperature is missing receives all precipitation as rain; with a snow redistribution factor, rainfall is unchanged, snowfall is multiplied by the factor and precipitation is updated to the new sum.", "quantifier": "every temperature field (with missing values), precipitation field and redistribution field", "why_tests_cant": "must hold pixelwise for all forcing fields", "anchors": ["openamundsen/model.py: OpenAmundsen._process_meteo_data"]}
{"id": "C11", "title": "No snow below rain", "statement": "With enforce_no_snow_below_rain, no pixel at or below the highest pixel with pure rain receives snow; pixels above it keep their phase; without any pure-rain pixel nothing changes.", "quantifier": "every elevation field and temperature field", "why_tests_cant": "a global (whole-domain) condition over arbitrary inversion patterns", "anchors": ["openamundsen/model.py: OpenAmundsen._process_meteo_data"]}
{"id": "C12", "title": "Inverse distance weighting", "statement": "The interpolated value at every target lies between the smallest and largest usable station value, equals the value of a station located at the target (smoothing 0), reproduces a constant field, commutes with affine transformations of the station values, does not depend on the order of stations with distinct positions, ignores stations with missing coordinates or values, is missing exactly if no station is usable; unequal array lengths are rejected.", "quantifier": "every number and arrangement of stations, values with gaps, targets, positive powers and smoothing", "why_tests_cant": "continuous domain with arbitrary station sets", "anchors": ["openamundsen/interpolation.py: _idw, idw"]}
{"id": "C13", "title": "Multilayer: melt conserves mass", "statement": "The melt routine moves exactly the reported melt from ice to liquid water, layer by layer from the top; reported melt is non-negative and at most the ice present; ice, liquid water and thickness stay non-negative and thickness never grows; no active layer is left warmer than the melting point; reported melt is smaller than the demand plus the melt equivalent of layers above the melting point only if the ice reachable is used up.", "quantifier": "every number of layers, layer state and melt demand", "why_tests_cant": "sequential loop with data-dependent branches over unbounded layer stacks", "anchors": ["openamundsen/modules/snow/multilayermodel.py: _melt"]}
{"id": "C14", "title": "Multilayer: sublimation conserves mass", "statement": "The sublimation routine removes exactly the reported positive sublimation from the ice, top-down, when it does not exceed the ice present; negative sublimation adds snow at the surface of exactly that mass; liquid water is untouched; thickness stays non-negative and never grows. If an active layer below a partially sublimated one holds no ice, its thickness becomes 0/0.", "quantifier": "every layer stack and moisture flux", "why_tests_cant": "loop over arbitrary layer stacks including empty layers", "anchors": ["openamundsen/modules/snow/multilayermodel.py: MultilayerSnowModel.sublimation, _sublimation"]}
{"id": "C15", "title": "Multilayer: runoff and refreezing conserve mass", "statement": "rain + old liquid water + old ice = runoff + new liquid water + new ice for each pixel; reported refreezing is exactly the ice gained; after the call each active layer holds at most its maximum liquid water; refreezing never warms a layer above the melting point and the heat gained equals the latent heat released; runoff is non-negative; without snow layers runoff equals rainfall; missing rainfall counts as zero.", "quantifier": "every layer stack, rainfall (incl. missing) and retention capacity", "why_tests_cant": "sequential percolation through unbounded layer stacks", "anchors": ["openamundsen/modules/snow/multilayermodel.py: _runoff"]}
{"id": "C16", "title": "Multilayer: relayering conserves mass, energy and profile", "statement": "If the snow depth is at least 1e-6 m and every configured minimum thickness is at least 1e-6 m, relayering keeps total ice, liquid water, internal energy and thickness, and every new layer receives exactly the part of the old (piecewise uniform) profile lying in its depth interval; layer contents stay non-negative. The result is NaN exactly if an active layer without thickness lies on the lower boundary of a new layer, hence never if completely melted layers occur only on top of the others. Snow thinner than 1e-6 m is deleted together with its water; it gives NaN exactly if one of its layers has no thickness.", "quantifier": "every old layer stack and every minimum-thickness configuration", "why_tests_cant": "two-pointer remapping with a nested unbounded loop", "anchors": ["openamundsen/modules/snow/multilayermodel.py: _update_layers"]}
{"id": "C17", "title": "Multilayer: layer thicknesses follow the configuration", "statement": "After relayering the number of active layers is at most the configured number, active layers are exactly the top ones, each has positive thickness, all but the lowest active layer have exactly the configured minimum thickness, inactive layers are empty at the melting point, and the layer thicknesses add up to the snow depth.", "quantifier": "every snow depth and every list of positive minimum thicknesses", "why_tests_cant": "loop with early exit over arbitrary configurations", "anchors": ["openamundsen/modules/snow/multilayermodel.py: _update_layers"]}
{"id": "C18", "title": "Multilayer: whole-step water balance", "statement": "Over one time step SWE changes by snowfall + rainfall + deposition - sublimation - runoff, up to the mass of a snowpack thinner than 1e-6 m that is deleted; over any number of time steps the sums balance.", "quantifier": "every initial snowpack, every forcing sequence of any length", "why_tests_cant": "an invariant over unbounded histories", "anchors": ["openamundsen/model.py: OpenAmundsen._model_interface", "openamundsen/modules/snow/multilayermodel.py"]}
{"id": "C19", "title": "Adding snow", "statement": "Adding ice of mass m with density rho to the top raises SWE by m and depth by m/rho; a snow-free pixel gets exactly one layer at min(air temperature, melting point) with maximum albedo; other pixels keep layer count, temperature and albedo; missing amounts add nothing.", "quantifier": "every pixel state and added amount", "why_tests_cant": "branches on pixel state and missing values", "anchors": ["openamundsen/modules/snow/multilayermodel.py: MultilayerSnowModel.add_snow", "openamundsen/modules/snow/cryolayermodel.py: CryoLayerSnowModel.add_snow"]}
{"id": "C20", "title": "Tridiagonal solver", "statement": "For every strictly diagonally dominant system the solver performs no division by zero and returns the unique solution of the system; the array version returns the same per column.", "quantifier": "every system size and coefficients", "why_tests_cant": "tests compare a few random systems with a reference solver", "anchors": ["openamundsen/tridiag.py: solve_tridiag, solve_tridiag_array"]}
{"id": "C21", "title": "Heat conduction conserves energy", "statement": "The heat gained by the layers in one time step equals the heat entering through the top plus the heat exchanged with the bottom at the new bottom-layer temperature; each layer's change equals the net conductive flux at the new temperatures.", "quantifier": "every number of layers, positive thicknesses, conductivities, heat capacities and time step", "why_tests_cant": "implicit scheme on arbitrary layer stacks", "anchors": ["openamundsen/heatconduction.py: temp_change, temp_change_array", "openamundsen/modules/soil/soil.py: soil_temperature"]}
{"id": "C22", "title": "Heat conduction obeys the maximum principle", "statement": "Without surface heat flux the new temperatures stay between the smallest and the largest of the old layer temperatures and the bottom temperature; an isothermal column without surface flux stays unchanged.", "quantifier": "every number of layers and positive parameters, every time step length", "why_tests_cant": "unconditional stability claim over all inputs", "anchors": ["openamundsen/heatconduction.py: temp_change"]}
{"id": "C23", "title": "Snow column is coupled to the soil below", "statement": "The bottom boundary temperature used for the snow column is the temperature of the top soil layer. (False of the code: it is the temperature of the last snow layer array slot.)", "quantifier": "every snow and soil state", "why_tests_cant": "a wrong argument of the right type and magnitude passes numerical tests", "anchors": ["openamundsen/modules/snow/multilayermodel.py: _heat_conduction"]}
{"id": "C24", "title": "Albedo stays in its configured range", "statement": "If min <= max then from any snow-free start, under any sequence of snowfall, ageing, melting, layer transitions and re-layering, the snow albedo of every snow-covered pixel stays in [min, max]; without snowfall ageing never raises it; ageing over two steps equals ageing over one step of double length.", "quantifier": "every sequence of weather and every positive timescale", "why_tests_cant": "invariant over unbounded histories", "anchors": ["openamundsen/modules/snow/snow.py: albedo", "openamundsen/modules/snow/cryolayermodel.py: CryoLayerSnowModel.albedo_aging, CryoLayerSnowModel.layer_transition"]}
{"id": "C25", "title": "Compaction", "statement": "Compaction (both methods) changes neither ice nor liquid water, never lowers density nor raises thickness, keeps density x thickness = mass for each layer, leaves layers at or above their maximum density unchanged (empirical), never exceeds the maximum density (empirical), and does nothing when the air temperature is missing (Anderson).", "quantifier": "every layer stack, temperature (incl. missing) and time step", "why_tests_cant": "exponential rates over a continuous domain", "anchors": ["openamundsen/modules/snow/snow.py: _compaction_anderson, _compaction_empirical"]}
{"id": "C26", "title": "Fresh snow density and retention capacity", "statement": "Fresh snow density is at least 50 kg m-3, non-decreasing in temperature, constant below -15 C, and 100 kg m-3 for missing temperature. The liquid water capacity is non-negative whenever the layer is no denser than ice and is zero for layers of zero thickness (pore volume method) or zero ice (mass fraction method); for a layer denser than ice the pore-volume method yields a negative capacity.", "quantifier": "every temperature and layer state", "why_tests_cant": "continuous domain with missing values and degenerate layers", "anchors": ["openamundsen/modules/snow/snow.py: fresh_snow_density, max_liquid_water_content"]}
{"id": "C27", "title": "Bulk snow properties", "statement": "SWE equals the sum of ice and liquid water over the layers, depth the sum of thicknesses; the snow cover fraction lies in [0, 1), is 0 exactly for zero depth, and is increasing in depth (with a positive depth scale; otherwise it is the indicator of snow).", "quantifier": "every layer stack and depth scale", "why_tests_cant": "continuous domain", "anchors": ["openamundsen/modules/snow/snow.py: snow_properties"]}
{"id": "C28", "title": "Cryolayers: melt, sublimation and runoff conserve mass", "statement": "Melt moves exactly min(demand, ice) from ice to liquid water top-down; sublimation removes exactly the reported amount; runoff plus new liquid water equals rain plus old liquid water; firn and ice layers hold no liquid water afterwards; all contents stay non-negative.", "quantifier": "every state of the four layers and every forcing", "why_tests_cant": "loop with masks over all combinations of empty and non-empty layers", "anchors": ["openamundsen/modules/snow/cryolayermodel.py: CryoLayerSnowModel.melt, sublimation, runoff"]}
{"id": "C29", "title": "Cryolayers: layer transitions conserve mass", "statement": "Each layer transition moves all ice, liquid water and cold content of the source layer to the destination and leaves the source empty; density and albedo of the destination become the mass-weighted means (hence lie between the two); total SWE is unchanged by the update of the layers.", "quantifier": "every pair of layer states and transition masks", "why_tests_cant": "mask logic over all combinations of layer states", "anchors": ["openamundsen/modules/snow/cryolayermodel.py: CryoLayerSnowModel.layer_transition, update_layers, reset_layer"]}
{"id": "C30", "title": "Cryolayers: energy-balance melt is bounded and energy-conserving", "statement": "For positive energy balance the melt plus cold-content reduction times the latent heat of fusion equals the available energy unless the whole pack melts; melt never exceeds the ice present; cold content stays non-negative; for a non-positive energy balance there is no melt.", "quantifier": "every layer state, energy balance and time step", "why_tests_cant": "sequential time-splitting over layers", "anchors": ["openamundsen/surface.py: cryo_layer_energy_balance"]}
{"id": "C31", "title": "Cryolayers: refreezing and cold content", "statement": "Refreezing moves liquid water to ice without loss and never exceeds the available cold; cold content after build-up lies between 0 and the cold holding capacity of the layer; the cold used for refreezing plus the build-up never exceeds the available cold; firn and ice receive none.", "quantifier": "every layer state and energy deficit", "why_tests_cant": "clipping logic over a continuous domain", "anchors": ["openamundsen/surface.py: cryo_layer_energy_balance"]}
{"id": "C32", "title": "Temperature-index melt", "statement": "Melt lies between 0 and the ice present, is zero at or below the threshold temperature and for snow-free pixels, and is non-decreasing in temperature; with the enhanced method also non-decreasing in shortwave radiation and non-increasing in albedo.", "quantifier": "every temperature, radiation, albedo and non-negative factors", "why_tests_cant": "continuous domain", "anchors": ["openamundsen/modules/snow/cryolayermodel.py: CryoLayerSnowModel.temperature_index"]}
{"id": "C33", "title": "Cryolayers: whole-step water balance", "statement": "Over one time step SWE changes by snowfall + rainfall - sublimation (deposition counted negative) - runoff; over any number of steps the sums balance.", "quantifier": "every initial state and forcing history", "why_tests_cant": "invariant over unbounded histories", "anchors": ["openamundsen/model.py: OpenAmundsen._model_interface", "openamundsen/modules/snow/cryolayermodel.py"]}
{"id": "C34", "title": "Old snow becomes firn once a year", "statement": "The old-snow-to-firn transition happens exactly at the time steps whose month is the configured one while the previous time step's month is not, hence at most once per visit of that month, and never at the first time step of a run.", "quantifier": "every date sequence", "why_tests_cant": "ranges over all date sequences", "anchors": ["openamundsen/modules/snow/cryolayermodel.py: CryoLayerSnowModel.update_layers"]}
{"id": "C35", "title": "Canopy interception mass balance", "statement": "In each step, change of intercepted load = intercepted snowfall - canopy sublimation - melt unload, and snowfall reaching the ground = snowfall above - intercepted + unload, whenever the load does not exceed the storage capacity; load stays within [0, capacity]; interception never exceeds snowfall. If the capacity drops below the load (declining leaf area), intercepted mass vanishes unaccounted.", "quantifier": "every load, capacity, snowfall, temperature history", "why_tests_cant": "continuous domain; the failing case needs a seasonal change of leaf area", "anchors": ["openamundsen/modules/canopy/canopy.py: CanopyModel.snow"]}
{"id": "C36", "title": "Canopy 24 h mean temperature", "statement": "The mean used in a time step is the mean of the non-missing temperatures of the last N time steps (N steps per day), for every run length.", "quantifier": "every temperature history of any length with gaps, every N", "why_tests_cant": "ring buffer over unbounded histories", "anchors": ["openamundsen/modules/canopy/canopy.py: CanopyModel.meteorology"]}
{"id": "C37", "title": "Canopy meteorology bounds", "statement": "Inside the canopy shortwave radiation and wind speed are not larger than above (non-negative coefficients), relative humidity is within [0, 100] and not smaller than above (for input in range), and canopy fraction is within [0, 1].", "quantifier": "every leaf area index and meteorology", "why_tests_cant": "continuous domain", "anchors": ["openamundsen/modules/canopy/canopy.py: CanopyModel.meteorology"]}
{"id": "C38", "title": "Root-zone water balance", "statement": "Root zone depletion always lies in [0, total available water]; deep percolation is non-negative and occurs only when the root zone is filled to field capacity; change of depletion = ET + percolation - rain unless limited by the total available water; the water stress coefficient is in [0, 1], equal to 1 while depletion does not exceed readily available water, and non-increasing in depletion.", "quantifier": "every history of rain and ET, every soil", "why_tests_cant": "invariant over unbounded histories", "anchors": ["openamundsen/modules/evapotranspiration/evapotranspiration.py: EvapotranspirationModel._root_zone_water_balance, _water_stress_coefficient"]}
{"id": "C39", "title": "Surface evaporation layer", "statement": "Depletion of the evaporation layer stays in [0, total evaporable water] and the evaporation reduction coefficient in [0, 1] for every history. A rain larger than the depletion refills the layer (false of the code: the percolation term subtracts the previous percolation instead of the depletion).", "quantifier": "every history of rain and evaporation", "why_tests_cant": "state feedback over histories", "anchors": ["openamundsen/modules/evapotranspiration/evapotranspiration.py: EvapotranspirationModel._dual_coeff_crop_et"]}
{"id": "C40", "title": "Sealed surface interception", "statement": "Interception on sealed surfaces stays in [0, maximum]; in each step, change = rain - percolation - evaporation; nothing evaporates while it rains; evaporation never exceeds the stored water.", "quantifier": "every history of rain and energy", "why_tests_cant": "invariant over histories", "anchors": ["openamundsen/modules/evapotranspiration/evapotranspiration.py: EvapotranspirationModel._sealed_evaporation"]}
{"id": "C41", "title": "Crop coefficient curve", "statement": "The crop coefficient equals the off-season value outside the growing period, lies between the initial/mid/end values inside, is reached without division by zero for any stage lengths (including zero-length stages), hits the mid value at the end of the development stage and the end value at the end of the late stage, and depends only on the day; plant height lies in [0, maximum]. Stage length lists of unequal sizes are rejected.", "quantifier": "every day and every list of stage lengths", "why_tests_cant": "index arithmetic over arbitrary cycles", "anchors": ["openamundsen/modules/evapotranspiration/evapotranspiration.py: crop_coefficient"]}
{"id": "C42", "title": "Leaf area index works for every accepted land cover class", "statement": "For a class with leaf area parameters and growth stage lengths, the leaf area index lies between min and max. (For stage lengths given as a list of sub-cycles the computation always fails, as the lists are concatenated instead of added.)", "quantifier": "every class definition and day", "why_tests_cant": "the failing configuration is schema-valid but untested", "anchors": ["openamundsen/landcover.py: LandCover.lai, LandCover.growth_stage_lengths, LandCover.growing_period_day"]}
{"id": "C43", "title": "Glacier mass change is conserved", "statement": "The distributed mass changes add up to the total mass balance of the updated pixels, for negative balance with and without the restriction of surface lowering and for positive balance, provided the elevations involved are not all equal; with equal elevations the result is undefined; the normalised thickness change is in [-1, 0] and zero at the highest pixel for small glaciers.", "quantifier": "every set of glacier pixels, mass balance and area class", "why_tests_cant": "sums over arbitrary pixel sets", "anchors": ["openamundsen/modules/glacier/glaciermodel.py: _ice_mass_change, _delta_h, _mass_loss_surplus_distribution"]}
{"id": "C44", "title": "Point output contains every time step exactly once", "statement": "After a run the output time series contains each model date exactly once, in order, with the value of the state at that date, however the run is divided into chunks, whenever the first write date is a model date; the in-memory data is dropped after each write. If the first write date is not a model date, the first chunk is appended to whatever file exists.", "quantifier": "every time axis, every list of write dates, every history of values", "why_tests_cant": "chunk bookkeeping over arbitrary write dates", "anchors": ["openamundsen/fileio/pointoutput.py: PointOutputManager.update, _current_chunk_dates, __init__"]}
{"id": "C45", "title": "Gridded aggregation", "statement": "The field written at a write date is the exact sum (mean) of the variable over all time steps after the previous write, up to and including the write date; pixels outside the ROI carry the fill value; non-aggregated fields are written as they are.", "quantifier": "every history of values and every set of write dates", "why_tests_cant": "running mean over unbounded histories with resets", "anchors": ["openamundsen/fileio/griddedoutput.py: GriddedOutputManager.update"]}
{"id": "C46", "title": "Gridded write dates for fixed frequencies", "statement": "For an output frequency that is a multiple of the time step, the write dates of aggregated fields are model dates, split the run into consecutive intervals of exactly freq/dt steps, and omit an incomplete last interval; the write dates of instantaneous fields are the starts of those intervals; frequencies smaller than or not a multiple of the time step are rejected.", "quantifier": "every time axis and frequency", "why_tests_cant": "arithmetic over unbounded axes", "anchors": ["openamundsen/fileio/griddedoutput.py: _freq_write_dates"]}
{"id": "C47", "title": "ROI-pixel layout round trip", "statement": "Converting a ROI-pixel output back to the grid restores every value at its ROI cell and the fill value elsewhere; x/y coordinates equal the cell centres of the model grid.", "quantifier": "every grid, ROI and field", "why_tests_cant": "index bookkeeping for arbitrary ROIs", "anchors": ["openamundsen/util.py: convert_roi_pixel_dataset_to_grid, ModelGrid.prepare_coordinates, ModelGrid.prepare_roi_coordinates", "openamundsen/fileio/griddedoutput.py: GriddedOutputManager.update"]}
{"id": "C48", "title": "Station selection rules", "statement": "The selected stations are exactly those inside the bounds and not excluded, plus the explicitly included ones, each once; including an unknown station is an error; include wins over exclude and bounds.", "quantifier": "every station table and rule lists", "why_tests_cant": "set logic over arbitrary tables and duplicates", "anchors": ["openamundsen/fileio/meteo.py: _apply_station_rules"]}
{"id": "C49", "title": "Range filters", "statement": "After filtering, every remaining value of a filtered variable lies in the given range; values inside the range, other variables and the time axis are unchanged; filtering is idempotent and independent of filter order.", "quantifier": "every data series (with gaps) and filter list", "why_tests_cant": "all series and filter combinations", "anchors": ["openamundsen/fileio/meteo.py: _apply_filters, _apply_filter"]}
{"id": "C50", "title": "Resampling preserves precipitation", "statement": "When hourly (or finer) data are aggregated to a coarser time step that is a multiple of theirs, each aggregated precipitation value is the sum over the records in (t - step, t], is missing if one of them is missing, every record after the first bin boundary enters exactly one bin, and the total over complete bins equals the total of the records.", "quantifier": "every series length, values with gaps, and multiples", "why_tests_cant": "binning over arbitrary series", "anchors": ["openamundsen/fileio/meteo.py: _resample_dataset, _slice_and_resample_dataset"]}
{"id": "C51", "title": "Station lies in the grid", "statement": "A station is flagged as within the grid extent exactly if its coordinates lie in the half-open extent x_min <= x < x_max, y_min < y <= y_max, and as within the ROI exactly if additionally its cell is in the ROI; with extend_roi_with_stations all stations within the extent are in the ROI afterwards and no other cell is added. (The bounds filter uses y_min <= y < y_max instead, so the two disagree on the upper and lower edges.)", "quantifier": "every grid geometry, ROI and station position", "why_tests_cant": "edge cases of a half-open geometry", "anchors": ["openamundsen/forcing.py: prepare_point_coordinates", "openamundsen/model.py: OpenAmundsen.initialize", "openamundsen/fileio/meteo.py: _apply_station_rules"]}
{"id": "C52", "title": "Land cover parameters", "statement": "Each land cover parameter equals the user's value if given for that class, else the default of that class; classes unknown to the defaults keep exactly the user's parameters; no other class is affected.", "quantifier": "every default table and user table", "why_tests_cant": "map semantics over arbitrary tables", "anchors": ["openamundsen/conf.py: _merge_land_cover_params"]}
{"id": "C53", "title": "Configuration validation", "statement": "A configuration passes the additional checks only if: multilayer is combined with energy balance, the temperature index methods have their factors, the delta-h glacier model is combined with cryolayers, and for time steps longer than a day write_freq is a multiple of the time step; thresholds given in Celsius are converted to Kelvin exactly once; deprecated option names are mapped to the new ones and validation is idempotent.", "quantifier": "every configuration", "why_tests_cant": "decision logic over all combinations", "anchors": ["openamundsen/conf.py: validate_config, ConfigurationValidator"]}
{"id": "C54", "title": "Logger configuration", "statement": "However often logging is configured, at most one default handler is attached, handlers of the host application are never removed, a default handler is only attached if the host has none and default logging is enabled, and repeating the configuration in the same process changes nothing.", "quantifier": "every initial set of handlers and every sequence of models/configurations", "why_tests_cant": "process-global state over histories", "anchors": ["openamundsen/model.py: OpenAmundsen.configure_logger, OpenAmundsen._ensure_logger_configured"]}
{"id": "C55", "title": "Array normalisation", "statement": "normalize_array maps the minimum of the data to min, the maximum to max and everything else affinely in between; missing values stay missing. Constant data make the scale undefined.", "quantifier": "every data array with gaps", "why_tests_cant": "continuous domain", "anchors": ["openamundsen/util.py: normalize_array"]}
{"id": "C56", "title": "Interpolated meteorology stays in its physical range", "statement": "For any station data, interpolated temperature and precipitation are >= 0, relative humidity is in [0, 100] and wind speed >= 0.1 wherever they are not missing; with extrapolation disabled and a variable other than humidity the field additionally stays inside the range of the station values (if that range is physical); without any station value precipitation is 0 everywhere and other variables are missing everywhere.", "quantifier": "every station set, trend method and target grid", "why_tests_cant": "continuous domain; trends can extrapolate arbitrarily far", "anchors": ["openamundsen/meteo/interpolation.py: interpolate_param"]}
{"id": "C57", "title": "Interpolation reproduces the station measurements", "statement": "With the fixed, fractional or regression trend method, the interpolated value at a target that coincides with a station in position and elevation is exactly the station measurement (if it is in the physical range); a shift of all elevations by a constant does not change the result; without stations differing in elevation from targets the lapse rate has no influence.", "quantifier": "every station set, lapse rate and target", "why_tests_cant": "exactness must hold for all trends and positions", "anchors": ["openamundsen/meteo/interpolation.py: interpolate_param, _apply_linear_trend, _linear_fit"]}
{"id": "C58", "title": "Humidity interpolation without extrapolation", "statement": "With extrapolation disabled, interpolated relative humidity lies in the range of the station humidities. (False of the code: the limits are the dew point temperatures in Kelvin, so the result is 100 % everywhere whenever all station dew points are above 100 K.)", "quantifier": "every station set", "why_tests_cant": "units mix-up in a non-default configuration", "anchors": ["openamundsen/meteo/interpolation.py: interpolate_param"]}
{"id": "C59", "title": "Precipitation adjustment factor", "statement": "With trend method adjustment_factor the precipitation at the interpolated station elevation equals the untrended interpolation, the factors for elevation differences d and -d are reciprocal, the factor is positive and increasing in d while |lapse rate * d| < 1; outside that range the factor is undefined or non-positive (the value is then clipped to 0).", "quantifier": "every lapse rate and elevation difference", "why_tests_cant": "singularity of a rational function", "anchors": ["openamundsen/meteo/interpolation.py: interpolate_param"]}
{"id": "C60", "title": "Humidity conversions are inverse to each other", "statement": "relative_humidity_from_dew_point_temperature(T, dew_point_temperature(T, rh)) = rh for rh > 0 (within the domain of the formula), dew point equals temperature at 100 % and is below it below 100 %; relative_humidity(T, absolute_humidity(T, vapor_pressure(T, rh))) = rh; saturation vapor pressure is positive and increasing in temperature.", "quantifier": "every temperature and humidity in the domain of the formulas", "why_tests_cant": "continuous domain, round trip law", "anchors": ["openamundsen/meteo/atmosphere.py: dew_point_temperature, relative_humidity_from_dew_point_temperature, absolute_humidity, relative_humidity, saturation_vapor_pressure, vapor_pressure"]}
{"id": "C61", "title": "Pressure and altitude are inverse to each other", "statement": "pressure_to_altitude(atmospheric_pressure(z)) = z for every elevation below the top of the standard profile and atmospheric_pressure(pressure_to_altitude(p)) = p for every p >= 0; pressure is strictly decreasing with elevation.", "quantifier": "every elevation and pressure", "why_tests_cant": "round trip law over the reals", "anchors": ["openamundsen/meteo/atmosphere.py: atmospheric_pressure, pressure_to_altitude"]}
{"id": "C62", "title": "Wind components round trip", "statement": "wind_from_uv(wind_to_uv(ws, wd)) = (ws, wd mod 360) for every ws > 0; the speed is never negative and the direction is in [0, 360).", "quantifier": "every speed and direction", "why_tests_cant": "case distinction over all quadrants and multiples of 360", "anchors": ["openamundsen/meteo/atmosphere.py: wind_to_uv, wind_from_uv"]}
{"id": "C63", "title": "Cloud fraction and cloud factor", "statement": "Both conversions map into [0, 1], are non-increasing, and are inverse to each other on [0, 1] and [0.352, 1]; factors below 0.352 give fraction 1; the humidity-based cloud fraction is in [0, 1].", "quantifier": "every fraction and factor", "why_tests_cant": "quadratic inverse with clipping over a continuous domain", "anchors": ["openamundsen/meteo/atmosphere.py: cloud_factor_from_cloud_fraction, cloud_fraction_from_cloud_factor, cloud_fraction_from_humidity"]}
{"id": "C64", "title": "Station precipitation correction", "statement": "The constant snow correction factor leaves pure rain unchanged and multiplies pure snow by the factor; with factor >= 1 precipitation never decreases; values without wind or temperature are unchanged; zero precipitation stays zero. All gauges of the wmo method are usable (false of the code: every gauge except 'hellmann' raises). The kochendorfer method never reduces precipitation (false of the code for gauge nor_sa in warm rain).", "quantifier": "every station series, gauge and factor", "why_tests_cant": "decision logic and continuous domain; only one gauge is exercised", "anchors": ["openamundsen/meteo/precipcorr.py: correct_station_precipitation"]}
{"id": "C65", "title": "Wind field correction stays bounded", "statement": "The terrain-corrected wind (method liston) is defined at every cell; with weights adding up to 1 the corrected speed is between 0.5 and 1.5 times the interpolated speed (at least 0.1), the direction stays in [0, 360). (False of the code on terrain where the slope in wind direction is uniform, e.g. a plane: all values are missing. The direction changes by at most a quarter of a degree because an angle in radians is added to degrees.)", "quantifier": "every grid, wind field, slope, aspect and curvature", "why_tests_cant": "the normalisation couples all cells of the grid, tests use a few terrains", "anchors": ["openamundsen/meteo/interpolation.py: _liston_wind_correction", "openamundsen/util.py: normalize_array"]}
{"id": "C66", "title": "Wet-bulb temperature solves the psychrometric equation", "statement": "The psychrometric equation has at most one solution, which lies between the temperature at which the air would be saturated and the air temperature; in saturated air the computed wet-bulb temperature is the air temperature; whenever the iteration ends, the last secant step was at most 0.01 K, and the distance to the solution is at most the residual divided by the psychrometric constant.", "quantifier": "every temperature, vapor pressure and psychrometric constant, every number of iterations", "why_tests_cant": "iteration over real inputs; tests compare a few tabulated values", "anchors": ["openamundsen/meteo/atmosphere.py: wet_bulb_temperature, _water_vapor_pressure_difference"]}
{"id": "C67", "title": "Slope and aspect of a plane", "statement": "On an inclined plane the slope is the plane's inclination and the aspect its downslope azimuth at every cell; the slope lies in [0, 90) degrees, is zero exactly for a vanishing gradient, the aspect lies in [0, 360) and points downslope; adding a constant to the DEM changes nothing.", "quantifier": "every DEM of at least 3x3 cells, every cell, every resolution", "why_tests_cant": "real-valued DEMs of any size; tests use a few shapes and look at interior cells", "anchors": ["openamundsen/terrain.py: slope_aspect"]}
{"id": "C68", "title": "Surface normals", "statement": "The normal vector has unit length and points upwards; for a plane it is the plane's exact normal at every cell including the border, and it agrees with slope and aspect; the cosine of incidence never exceeds 1 in magnitude and on flat ground equals the sun's height.", "quantifier": "every DEM, every cell, every unit sun vector", "why_tests_cant": "relation between two independently coded terrain routines over all DEMs", "anchors": ["openamundsen/terrain.py: normal_vector", "openamundsen/modules/radiation/clearsky.py: clear_sky_irradiance (angle of incidence)"]}
{"id": "C69", "title": "Curvature", "statement": "Curvature vanishes on planes away from the border, changes sign with the DEM, ignores a constant offset, and is non-negative where no cell within the shift distance is higher.", "quantifier": "every DEM, every cell, every length scale", "why_tests_cant": "real-valued DEMs of any size", "anchors": ["openamundsen/terrain.py: curvature, _shift_arr"]}
{"id": "C70", "title": "Openness does not depend on thread scheduling", "statement": "The openness in one direction is the smallest sight angle over all distances, whatever the order in which the parallel iterations run.", "quantifier": "every DEM, every schedule of the parallel loop", "why_tests_cant": "a data race shows up only under particular interleavings", "anchors": ["openamundsen/terrain.py: _openness_dir"]}
{"id": "C71", "title": "Sun vector", "statement": "The sun vector is a unit vector; the sun is on the meridian exactly at hour angle zero and highest there over the day; morning sun is in the east; the hour angle advances 15 degrees per hour and depends only on the instant, not on the timezone it is expressed in.", "quantifier": "every latitude, declination, hour angle, longitude, timezone", "why_tests_cant": "trigonometric identities over the reals", "anchors": ["openamundsen/modules/radiation/sunparams.py"]}
{"id": "C72", "title": "Shadows", "statement": "A cell is in shadow exactly if an earlier cell on a line of sweep through it projects higher; the result does not depend on thread scheduling; flat terrain is never shaded, adding a constant to the DEM changes nothing, and lowering the sun at equal azimuth never lights a shaded cell.", "quantifier": "every DEM, every sun direction above the horizon, every schedule", "why_tests_cant": "all DEMs, directions and interleavings", "anchors": ["openamundsen/modules/radiation/shadows.py: shadows"]}
{"id": "C73", "title": "Sky view factor", "statement": "The sky view factor lies between 0 and 1 and is 1 for flat terrain.", "quantifier": "every DEM, every cell", "why_tests_cant": "all DEMs", "anchors": ["openamundsen/terrain.py: sky_view_factor"]}
{"id": "C74", "title": "Clear-sky irradiance", "statement": "Direct and diffuse clear-sky irradiance are non-negative, direct irradiance vanishes in shadow and on surfaces facing away from the sun and does not exceed the extraterrestrial value, and the relative optical air mass does not exceed its limit of 14.1952.", "quantifier": "every sun height, atmosphere and surface", "why_tests_cant": "real-valued inputs near the horizon", "anchors": ["openamundsen/modules/radiation/clearsky.py: clear_sky_irradiance, _transmittances"]}
{"id": "C75", "title": "Cloud factor fallback", "statement": "The cloud factor lies between 0 and 1, and with fallback allowed shortwave irradiance is available at every pixel in every time step whatever stations report.", "quantifier": "every combination of methods, stations and missing values", "why_tests_cant": "combinations of station availability over time", "anchors": ["openamundsen/modules/radiation/irradiance.py: shortwave_irradiance"]}
{"id": "C76", "title": "Longwave irradiance", "statement": "Incoming longwave irradiance is non-negative, grows with air temperature, and without surrounding slopes grows with cloud fraction whenever clear-sky emissivity is below that of clouds.", "quantifier": "every temperature, emissivity, cloud fraction and sky view factor", "why_tests_cant": "real-valued inputs", "anchors": ["openamundsen/modules/radiation/irradiance.py: longwave_irradiance"]}
{"id": "C77", "title": "Surface mixes snow and soil", "statement": "Surface albedo and roughness length lie between the values of snow and snow-free ground and equal them for full and no snow cover; the temperature of the surface layer lies between top soil and top snow layer temperature, its thermal conductivity between theirs, and both change continuously with snow thickness; surface conductance is never below the conductance of saturated soil.", "quantifier": "every snow cover fraction, snow thickness and positive parameters", "why_tests_cant": "the claim is about all thicknesses including the switching points; tests sample a few", "anchors": ["openamundsen/surface.py: surface_properties, surface_layer_properties"]}
{"id": "C78", "title": "Atmospheric stability", "statement": "The stability factor is 1 for equal air and surface temperature, at most 1 and positive for a surface colder than the air, at least 1 for a warmer surface, and non-increasing in the temperature difference; the turbulent exchange coefficient is positive whenever measurement heights exceed roughness lengths.", "quantifier": "every temperature, wind speed, roughness and measurement height", "why_tests_cant": "real-valued inputs with square roots and logarithms; zero wind is a special case", "anchors": ["openamundsen/surface.py: stability_factor, calc_turbulent_exchange_coefficient"]}
{"id": "C79", "title": "Surface energy balance of the multi-layer model", "statement": "The surface warms exactly if it gains energy at its present temperature; where snow melts partially, the surface is at the melting point and the reported fluxes balance the latent heat of melt; melt is non-negative, requires ice in the top layer, does not exceed the ice of the snowpack and is the whole of it where the surface ends above the melting point; elsewhere the reported sensible and latent heat fluxes belong to the new surface temperature.", "quantifier": "every state of surface, snow and atmosphere with positive temperatures", "why_tests_cant": "the sign of the correction terms only shows in the closure of the balance, which must hold for all states", "anchors": ["openamundsen/surface.py: multilayer_energy_balance, solve_energy_balance"]}
{"id": "C80", "title": "Surface temperature iteration", "statement": "The stepwise search returns the highest temperature of its grid with non-negative balance, within one step of the balance's zero, and depends only on the pixel itself; the secant iteration ends, also with the saturation humidity of the program, whose formula changes at the melting point; it never returns a temperature above the melting point, stops only where the last correction is within tolerance, and the reported fluxes belong to the returned temperature.", "quantifier": "every decreasing energy balance function and every set of pixels", "why_tests_cant": "quantifies over all balance functions and over the other pixels in the domain", "anchors": ["openamundsen/surface.py: iterate_surface_temperature, energy_balance_remainder, cryo_layer_energy_balance"]}
{"id": "C81", "title": "Soil moisture phases and thermal properties", "statement": "Unfrozen plus frozen water equals the soil's water at every temperature; the unfrozen content never exceeds it, is continuous and non-decreasing in temperature, and its derivative is the one used for the heat capacity; heat capacity is at least that of dry soil and thermal conductivity lies between the dry and the saturated value.", "quantifier": "every temperature, moisture content and soil composition", "why_tests_cant": "real powers and a phase threshold; continuity and derivative are statements about all temperatures", "anchors": ["openamundsen/modules/soil/soil.py: _soil_properties", "openamundsen/modules/soil/init.py: initialize"]}
{"id": "C82", "title": "Soil temperature and heat flux", "statement": "The flux into the soil is the surface flux without snow and otherwise is directed from warmer to colder; in a time step the soil column gains exactly the flux entering at the top (no heat passes through the bottom).", "quantifier": "every soil column and snow cover", "why_tests_cant": "the balance must hold for all layer numbers, temperatures and fluxes", "anchors": ["openamundsen/modules/soil/soil.py: soil_temperature, _soil_heat_flux", "openamundsen/heatconduction.py: temp_change_array"]}
{"id": "C83", "title": "Air density, latent heat and psychrometric constant", "statement": "Dry air density follows the ideal gas law: it decreases with temperature and increases with pressure, and the library function agrees with the density used in the model; latent heat of vaporization decreases with temperature and is positive over the range of surface temperatures; the psychrometric constant is positive and increases with pressure.", "quantifier": "every temperature and pressure", "why_tests_cant": "agreement of two formulas for all inputs", "anchors": ["openamundsen/meteo/atmosphere.py: dry_air_density, latent_heat_of_vaporization, specific_heat_capacity_moist_air, psychrometric_constant", "openamundsen/model.py: _calculate_meteo_variables"]}
{"id": "C84", "title": "Heat capacity of freezing soil", "statement": "The heat capacity used for the soil temperature is the derivative of the soil's heat content (dry soil, liquid water, ice and the heat of fusion bound by the liquid water), so that freezing and thawing neither create nor destroy heat.", "quantifier": "every soil composition, moisture content and temperature", "why_tests_cant": "a statement about derivatives at all temperatures; a test compares single values", "anchors": ["openamundsen/modules/soil/soil.py: _soil_properties"]}
{"id": "C85", "title": "Units of the forcing data", "statement": "A point dataset contains exactly the supported variables of its input; values with units other than the expected ones are rejected; precipitation rates become sums over the time step, cloud cover given as a fraction becomes per cent, and all other values (in particular cloud cover already given in per cent) are passed on unchanged, independently of the order in which variables are processed.", "quantifier": "every set of variables with units, values and dates", "why_tests_cant": "the conversions depend on combinations of units, number of variables, maximum values and spacing of dates; examples fix one combination", "anchors": ["openamundsen/forcing.py: make_point_dataset", "openamundsen/forcing.py: make_empty_point_dataset"]}
{"id": "C86", "title": "Combining stations loses no measurement", "statement": "Combining station datasets keeps every measurement of every station at its date and variable and adds only missing values; the dates are the union of the stations' dates; every minimum variable exists, so that the result is a valid forcing dataset; if the period check passes (or missing data are allowed) every model date can be looked up.", "quantifier": "every list of station datasets with arbitrary dates and variables", "why_tests_cant": "stations with arbitrary overlaps, gaps and variable sets", "anchors": ["openamundsen/forcing.py: combine_point_datasets, is_valid_point_dataset", "openamundsen/fileio/meteo.py: read_meteo_data"]}
{"id": "C87", "title": "Extended grid lies exactly below the model grid", "statement": "An extended DEM is accepted exactly if it has the model resolution, its cells coincide with those of the model grid and it covers the model grid; then the slices lie inside the extended grid and every model pixel receives the value of the extended cell with the same centre.", "quantifier": "every pair of grids (origin, size, resolution)", "why_tests_cant": "alignment for all offsets and sizes, including negative offsets that python would wrap around", "anchors": ["openamundsen/model.py: _read_extended_grids, _read_input_data"]}
{"id": "C88", "title": "Grid coordinates", "statement": "Coordinates of grid points are the cell centres: they are spaced by the resolution, lie inside the grid extent, and looking up the cell of a centre returns that cell; the k-th ROI point has the coordinates and flat index of the k-th ROI pixel in row-major order; a raster is read only if its geometry equals that of the model grid, and its nodata pixels get the fill value.", "quantifier": "every grid and ROI", "why_tests_cant": "index arithmetic for all sizes (including single rows/columns) and masks", "anchors": ["openamundsen/util.py: ModelGrid.prepare_coordinates, prepare_roi_coordinates", "openamundsen/fileio/raster.py: read_raster_metadata, read_raster_file"]}
{"id": "C89", "title": "Gridded write dates for months and years", "statement": "For monthly and yearly output frequencies aggregated fields are written at the last time step of every month/year that the run reaches the end of, and at no other date; instantaneous fields are written at the last (ME, YE) or first (MS, YS) time step of each month/year.", "quantifier": "every start date, time step and length of the run", "why_tests_cant": "interplay of time of day, time step and calendar; tests use runs starting at midnight", "anchors": ["openamundsen/fileio/griddedoutput.py: _freq_write_dates"]}
{"id": "C90", "title": "Glacier mass balance year", "statement": "The glacier geometry is updated exactly at the last time step of each mass balance year whose beginning lies in the run, and the mass balance used is the sum of the changes of all time steps of that mass balance year.", "quantifier": "every start month, time step, run period and history of the ice and firn storages", "why_tests_cant": "needs runs over years; the omission of single time steps is invisible in results", "anchors": ["openamundsen/modules/glacier/glaciermodel.py: update, _update_geometry", "openamundsen/model.py: _model_interface"]}
{"id": "C91", "title": "Piecewise elevation trend", "statement": "The elevation trend fitted for the interpolation has at most the configured number of segments, each segment of a trend with several segments contains the required number of stations, additional segments are used only if they improve the information criterion by the threshold, no trend is found only if the fit of a single line failed, and the settings of the regression have no effect on the other trend methods.", "quantifier": "every set of stations, every outcome of the fitting library and every configuration", "why_tests_cant": "depends on the combination of failing fits, segment populations and criterion differences", "anchors": ["openamundsen/meteo/interpolation.py: _piecewise_linear_fit, _apply_piecewise_trend"]}
{"id": "C92", "title": "Frequency strings", "statement": "A frequency string has the same meaning as in pandas, with n days being 24 n hours and the deprecated aliases H, M and Y meaning hours, month ends and year ends.", "quantifier": "every frequency string accepted by pandas", "why_tests_cant": "infinitely many strings; anchored frequencies ending in the same letters are not tested", "anchors": ["openamundsen/util.py: to_offset"]}
{"id": "C93", "title": "Point output definition", "statement": "An accepted point output configuration has unique point names and unique variable names, every configured point is taken from the grid cell that contains its coordinates, and creating the dataset does not fail later in the run.", "quantifier": "every list of stations, points and variables", "why_tests_cant": "name clashes between generated, station and reserved names; points on cell edges", "anchors": ["openamundsen/fileio/pointoutput.py: __init__, _create_dataset"]}
{"id": "C94", "title": "Gridded output time coordinates", "statement": "Two fields share a time coordinate exactly if they are written at the same dates and are both aggregated or both instantaneous; every value is stored at the index of its date, and the bounds of an aggregated value enclose exactly the time steps it is aggregated over.", "quantifier": "every list of fields with configured frequencies or dates", "why_tests_cant": "needs all combinations of fields; user-defined dates are unrestricted", "anchors": ["openamundsen/fileio/griddedoutput.py: __init__, update, _create_dataset"]}
{"id": "C95", "title": "Gridded output files are not overwritten", "statement": "Within a run no two values of gridded output are written to the same raster file.", "quantifier": "every list of accepted fields and every run", "why_tests_cant": "depends on clashes of names built from field names, layer numbers and dates", "anchors": ["openamundsen/fileio/griddedoutput.py: update"]}
{"id": "C96", "title": "Aggregated wind direction", "statement": "The aggregated wind direction is the direction of the mean wind vector: it lies in [0, 360), equals the common direction when all records with wind have the same direction, does not depend on the order of the records or on the unit of the wind speed, and is missing exactly if there is no record with both speed and direction.", "quantifier": "every list of wind records", "why_tests_cant": "circular averaging over real values and missing values", "anchors": ["openamundsen/fileio/meteo.py: _aggregate_wind_dir"]}
{"id": "C97", "title": "Sealed surface and sparse vegetation evaporation", "statement": "Evaporation from sealed surfaces follows the Penman-Monteith equation with the density of air by the ideal gas law, and the crop coefficient of sparse vegetation lies between the minimum and the full-cover coefficient and rises with vegetation cover.", "quantifier": "every weather, every cover fraction, latitude and season", "why_tests_cant": "real-valued formulas over all weather", "anchors": ["openamundsen/modules/evapotranspiration/evapotranspiration.py: _sealed_surface_evaporation, sparse_vegetation_adjustment"]}
{"id": "C98", "title": "Shadow resampling and stations outside the grid", "statement": "Shadows computed on a coarser grid are returned on the original grid with every cell having the value of the coarse cell it lies in, a factor of one changes nothing, and the clear-sky irradiance of a station outside of the model grid is calculated for the cell of the extended grid that contains the station.", "quantifier": "every grid shape, factor and station", "why_tests_cant": "grid sizes that are not multiples of the factor and stations on all sides of the grid", "anchors": ["openamundsen/modules/radiation/irradiance.py: clear_sky_shortwave_irradiance, extended_grid_stations_clear_sky_shortwave_irradiance"]}
{"id": "C99", "title": "Filling missing station data for the precipitation correction", "statement": "Before precipitation is corrected, missing temperatures, humidities and wind speeds are filled from the other stations: measured values are kept, all stations have a value if any of them has one, and only dates with precipitation are touched.", "quantifier": "every station network and every pattern of missing values", "why_tests_cant": "all patterns of missing values in three variables", "anchors": ["openamundsen/meteo/precipcorr.py: _interpolate_temp_hum_wind, correct_station_precipitation"]}
{"id": "C100", "title": "Land cover class pixels", "statement": "Every pixel of the domain with a configured (positive) land cover class belongs to exactly one class mask and all others to none; forest and leaf area index are handled for exactly the classes that are configured so.", "quantifier": "every land cover map and configuration", "why_tests_cant": "quantifies over all maps, including values without configuration and outside of the domain", "anchors": ["openamundsen/landcover.py: initialize"]}
{"id": "C101", "title": "Glacier terminus limit", "statement": "The lowering of the glacier surface is limited by the lowest mass balance of the pixels near the terminus: the lowest given percentage of the pixels or the lowest elevation band, whichever reaches higher; the limit is never positive and covers at least the terminus.", "quantifier": "every glacier and mass balance", "why_tests_cant": "percentages and elevation bands over arbitrary glaciers", "anchors": ["openamundsen/modules/glacier/glaciermodel.py: _update_geometry"]}
{"id": "C102", "title": "Resetting state variables does not change results", "statement": "With reset_state_variables switched on, every state variable that is retained, and every variable calculated in a time step before it is used, has the same values in all time steps as without resetting.", "quantifier": "every behaviour of the submodules that respects their inputs and outputs, every number of time steps", "why_tests_cant": "quantifies over all behaviours of the modules and all run lengths", "anchors": ["openamundsen/statevars.py: StateVariableManager.reset, add_default_state_variables", "openamundsen/model.py: run_single, _model_interface", "openamundsen/modules/glacier/glaciermodel.py: __init__"]}
{"id": "C103", "title": "Region of interest and input rasters", "statement": "A pixel belongs to the region of interest exactly if it is marked in the ROI file (or there is none) and has an elevation, or contains a station and extend_roi_with_stations is set; every pixel of the region of interest has an elevation; nodata pixels of the input rasters belong to no land cover class, no soil texture class and no glacier.", "quantifier": "every set of input rasters and stations", "why_tests_cant": "all combinations of missing values and stations", "anchors": ["openamundsen/model.py: _read_input_data, initialize", "openamundsen/fileio/raster.py: read_raster_file"]}
{"id": "C104", "title": "Interpolated fields of a time step", "statement": "After the interpolation the temperature, precipitation, humidity and wind fields of every pixel in the region of interest depend only on the stations with complete data for the respective variables on this date (humidity: together with temperature), not on earlier time steps; pixels outside are not touched; without any station precipitation is 0 and the other fields are missing.", "quantifier": "every station network, every previous state", "why_tests_cant": "quantifies over all previous states and all patterns of missing data", "anchors": ["openamundsen/meteo/interpolation.py: interpolate_station_data, _param_station_data"]}
{"id": "C105", "title": "Derived meteorological variables", "statement": "For physical temperatures and humidities the derived variables of a pixel are consistent with each other: vapor pressure between 0 and saturation vapor pressure, specific humidity in [0, 1), heat capacity of moist air at least that of dry air, positive psychrometric constant and air density, dew point not above wet-bulb temperature not above air temperature; the snow model sees derived variables that belong to the temperature and humidity it sees.", "quantifier": "every temperature, humidity and elevation, every configuration of the canopy model", "why_tests_cant": "inequalities over the whole range of real inputs", "anchors": ["openamundsen/model.py: _process_meteo_data, _model_interface", "openamundsen/modules/canopy/canopy.py: meteorology"]}
{"id": "C106", "title": "Shifting arrays", "statement": "Shifting an array by n pixels in one of the eight directions moves every value by exactly n pixels in this direction, in every mode; pixels for which no value is shifted in are filled according to the mode.", "quantifier": "every array shape, every n, all eight directions", "why_tests_cant": "all shapes and distances", "anchors": ["openamundsen/terrain.py: shift_arr, _shift_arr_retain"]}
{"id": "C107", "title": "Soil water parameters of the evapotranspiration model", "statement": "For every soil texture class and land cover class total evaporable water exceeds readily evaporable water, total available water is positive for a positive rooting depth, readily available water lies between 0 and total available water for depletion fractions in [0, 1], and pixels without a soil texture have no evapotranspiration parameters.", "quantifier": "every soil texture class, depletion fraction, rooting depth and evaporation depth", "why_tests_cant": "quantifies over all real parameters", "anchors": ["openamundsen/modules/evapotranspiration/evapotranspiration.py: initialize"]}
{"id": "C108", "title": "Water balance of canopy and snowpack", "statement": "For a pixel with or without forest, precipitation of all time steps equals the change of canopy-intercepted snow plus the change of SWE plus runoff plus sublimation from snowpack and canopy, with both snow models (multilayer: up to deleted thin snowpacks), as long as the interception capacity does not fall.", "quantifier": "every sequence of meteorological inputs and every initial snowpack", "why_tests_cant": "sums over arbitrarily long runs through four modules", "anchors": ["openamundsen/model.py: _process_meteo_data, _model_interface", "openamundsen/modules/canopy/canopy.py: snow", "openamundsen/modules/snow/cryolayermodel.py", "openamundsen/modules/snow/multilayermodel.py"]}
{"id": "C109", "title": "Reference evapotranspiration", "statement": "Reference evapotranspiration is the FAO-56 Penman-Monteith value for hourly time steps times the length of the time step, never negative, rises with net radiation and with the vapor pressure deficit, and is at most the limits given by radiation and aerodynamic term; the climate correction is bounded, zero for 2 m/s and 45 % humidity, and independent of values outside the stated ranges.", "quantifier": "every weather, every time step length, every plant height", "why_tests_cant": "inequalities over all real inputs", "anchors": ["openamundsen/modules/evapotranspiration/evapotranspiration.py: _reference_net_radiation, _reference_evapotranspiration, climate_correction"]}
{"id": "C110", "title": "Evapotranspiration of every land cover class", "statement": "In every time step and for every kind of land cover class (sealed, water body, single or dual crop coefficients), evapotranspiration is the sum of its parts where parts are calculated, is 0 on snow-covered pixels other than water bodies, does not exceed the potential value, and the water balance of root zone or interception storage closes; the storages of pixels of other kinds are not touched.", "quantifier": "every land cover class, every history of weather and snow cover", "why_tests_cant": "all combinations of class parameters over arbitrarily long histories", "anchors": ["openamundsen/modules/evapotranspiration/evapotranspiration.py: evapotranspiration"]}
{"id": "C111", "title": "Clear-sky irradiance fields", "statement": "In every time step global clear-sky irradiance is the sum of direct and diffuse irradiance in every pixel of the region of interest, all are 0 when the sun is below the horizon, shaded pixels get no direct irradiance, pixels outside are not touched, a missing albedo is replaced by the soil albedo, and a station in the extended grid gets the irradiance a grid pixel of the same terrain would get.", "quantifier": "every grid, sun position and albedo field", "why_tests_cant": "quantifies over all fields", "anchors": ["openamundsen/modules/radiation/irradiance.py: clear_sky_shortwave_irradiance, extended_grid_stations_clear_sky_shortwave_irradiance"]}
{"id": "C112", "title": "Point and gridded outputs agree", "statement": "For a point in the region of interest the sum or mean of its point output series over an interval equals the value of the aggregated gridded output of its pixel for this interval, however the point output is divided into chunks and files.", "quantifier": "every run length, aggregation interval, chunk size and field", "why_tests_cant": "two independent stateful writers over arbitrarily long runs", "anchors": ["openamundsen/fileio/pointoutput.py: update", "openamundsen/fileio/griddedoutput.py: update"]}
{"id": "C113", "title": "Station files", "statement": "Exactly the stations listed in the metadata that pass the station rules are read, each from its own file and with its own coordinates, in the order of the list; reading fails if there are no stations or none is left, or if a file is missing; station identifiers stay unique.", "quantifier": "every list of stations and rules", "why_tests_cant": "all lists and combinations of rules", "anchors": ["openamundsen/fileio/meteo.py: read_meteo_data, _read_meteo_metadata, _apply_station_rules"]}
{"id": "C114", "title": "Layout of the gridded output dataset", "statement": "Every data variable of the gridded output dataset has the length of the corresponding coordinate in each dimension; every value written during a run finds its place; the dataset can be created exactly if all three-dimensional variables of a category have the same number of layers; integer variables keep their exact values unless averaged.", "quantifier": "every list of output fields, both layouts", "why_tests_cant": "all lists of fields", "anchors": ["openamundsen/fileio/griddedoutput.py: _create_dataset, _field_dtype_and_fill_value, update"]}
{"id": "C115", "title": "Precipitation correction of a forcing table", "statement": "Correcting station precipitation changes nothing but the precipitation values: temperature, humidity and wind speed of the forcing dataset keep their recorded (possibly missing) values; missing values stay missing, zeros stay zero, and dates without precipitation are left alone. A constant snow correction factor multiplies the snow part of each value, with the phase the model itself would determine for the station's (filled) temperature and humidity, and leaves the rain part alone. A station with complete records is corrected independently of all other stations.", "quantifier": "every forcing table, every list of correction methods, every phase method", "why_tests_cant": "all tables and methods; interaction of gap filling, phase and correction", "anchors": ["openamundsen/meteo/precipcorr.py: correct_station_precipitation", "openamundsen/meteo/precipcorr.py: _interpolate_temp_hum_wind", "openamundsen/meteo/atmosphere.py: precipitation_phase"]}
{"id": "C116", "title": "Sky view factor files", "statement": "The sky view factor used in a run is the one that belongs to the run's DEM and number of sweeps, up to the precision of the file; runs repeated with the same inputs use the same values.", "quantifier": "every sequence of runs in the same directory", "why_tests_cant": "depends on the files left by previous runs", "anchors": ["openamundsen/model.py: _read_input_data", "openamundsen/model.py: _read_extended_grids", "openamundsen/fileio/raster.py: write_raster_file, read_raster_file"]}
{"id": "C117", "title": "Simulation time zone", "statement": "The position of the sun at an instant is the same whichever time zone the simulation dates refer to; without a simulation time zone the dates refer to the time zone of the region; the sun advances by 15 degrees per hour of universal time, with the declination and equation of time of the local calendar day.", "quantifier": "every instant, location and pair of time zones", "why_tests_cant": "all instants, in particular those near midnight", "anchors": ["openamundsen/model.py: _prepare_time_steps, _irradiance", "openamundsen/modules/radiation/sunparams.py: sun_parameters, hour_angle"]}
{"id": "C118", "title": "Measured values reach the model fields", "statement": "A physically possible value recorded in the file of a station that passes the selection and lies alone at a pixel centre and at the elevation of the pixel appears unchanged in the interpolated field of its date: neither reading the files, nor slicing and combining the stations, nor the interpolation alters it. This holds for temperature, humidity, precipitation (without corrections configured) and, with inverse distance weighting, wind, with lapse rate trends and with regression (elevation not 0), for files at the time step of the model.", "quantifier": "every set of station files, every date, every pixel and variable", "why_tests_cant": "end-to-end over all stages and all station sets", "anchors": ["openamundsen/fileio/meteo.py: read_meteo_data", "openamundsen/forcing.py: combine_point_datasets", "openamundsen/meteo/interpolation.py: interpolate_station_data", "openamundsen/interpolation.py: idw"]}
{"id": "C119", "title": "Water balance with evapotranspiration", "statement": "With evapotranspiration switched on, the precipitation of a pixel equals the changes of all storages (canopy, snowpack, root zone or sealed interception) plus all losses (canopy sublimation, sublimation, evapotranspiration, percolation, runoff); meltwater leaving the snowpack reaches the soil.", "quantifier": "every run of a pixel, both snow models, every kind of land cover class", "why_tests_cant": "all runs; cross-module accounting", "anchors": ["openamundsen/model.py: _model_interface", "openamundsen/modules/evapotranspiration/evapotranspiration.py: evapotranspiration, _soil_water_balance", "openamundsen/modules/snow/cryolayermodel.py: runoff", "openamundsen/modules/snow/multilayermodel.py: runoff"]}
{"id": "C120", "title": "State variables exist when they are used", "statement": "For every accepted configuration all state variables that the modules of a time step read or set have been declared before the first time step, and the submodules and methods that a time step calls exist; the combinations of options rejected by the validation are exactly those for which this fails.", "quantifier": "every accepted configuration", "why_tests_cant": "all combinations of options", "anchors": ["openamundsen/model.py: initialize, _model_interface", "openamundsen/statevars.py: add_default_state_variables", "openamundsen/conf.py: validate_config"]}
{"id": "C121", "title": "The multilayer snowpack never becomes NaN", "statement": "From bare ground or a plausible snowpack, and for every admissible input, a time step of the multilayer model yields numbers for every layer, so that a run never turns a pixel into NaN. Where this fails the situations are named exactly: a layer that melts through by its own heat (impossible for layers at most 50 K above the melting point that hold no more water than ice), or a remainder thinner than 1e-6 m in a pack in which a layer was emptied in the same step. A pack that the energy balance melts completely is safe in exact arithmetic.", "quantifier": "every snowpack, every admissible input, every run length", "why_tests_cant": "the failing situations need a coincidence of melt, deposition and layer geometry inside one time step; a NaN once stored stays", "anchors": ["openamundsen/modules/snow/multilayermodel.py: _sublimation", "openamundsen/modules/snow/multilayermodel.py: _update_layers", "openamundsen/model.py: _model_interface"]}
{"id": "C122", "title": "Coupled run of the multilayer model from its initial state", "statement": "A pixel is initialised as bare ground and then driven by any series of meteorological values through compaction, accumulation, albedo ageing, soil and surface properties, surface energy balance, heat conduction, melt, sublimation, runoff, relayering, soil heat flux and soil temperature, each taking its inputs from the state left by the others. For non-negative precipitation and configured values in their physical ranges, snow contents are never negative, the snow water equivalent changes by precipitation minus sublimation minus runoff (minus a deleted remainder thinner than 1e-6 m), a snow-covered pixel always has an albedo within the configured range, and a time step produces NaN only in the situations named in C121 or if an absolute temperature has become non-positive.", "quantifier": "every configuration in the physical ranges, every forcing series of any length", "why_tests_cant": "the preconditions of every single process (positive thicknesses, conductivities and heat capacities, a melt demand that is only issued at the melting point, an albedo wherever snow lies) are established by other processes of the same or the previous step; a test sees only the states its forcing reaches", "anchors": ["openamundsen/model.py: _model_interface", "openamundsen/model.py: _initialize_state_variables", "openamundsen/modules/snow/multilayermodel.py: MultilayerSnowModel", "openamundsen/modules/soil/soil.py: soil_temperature", "openamundsen/surface.py: multilayer_energy_balance"]}
{"id": "C123", "title": "Snow is never above the melting point at the end of a time step", "statement": "Whatever temperatures heat conduction, the energy balance and the air have, after every time step of the multilayer model all active snow layers are at or below 0 \u00b0C, and newly formed layers (snowfall or hoar on bare ground) start at or below 0 \u00b0C.", "quantifier": "every snowpack, every input, every run length", "why_tests_cant": "heat above the melting point is removed in melt, but heat capacities are stale while water is moved and layers are merged by energy; a violation needs a particular combination of layers", "anchors": ["openamundsen/modules/snow/multilayermodel.py: _melt", "openamundsen/modules/snow/multilayermodel.py: _runoff", "openamundsen/modules/snow/multilayermodel.py: _update_layers", "openamundsen/modules/snow/multilayermodel.py: add_snow"]}
{"id": "C124", "title": "Coupled run of the cryolayer model from its initial state", "statement": "A domain is initialised without snow and then driven by any series of meteorological fields through compaction, accumulation, albedo ageing, surface properties, the energy balance with the search for the snow surface temperature, melt, sublimation, runoff and the transitions new snow - old snow - firn - ice. For weather and configured values in their physical ranges every search for the surface temperature ends, no NaN arises in the snow arrays, contents are never negative, the snow water equivalent changes by precipitation minus sublimation minus runoff, every snow-covered pixel has an albedo within the configured values, the surface of snow is at most at the melting point and bare ground has air temperature, melt happens only at air temperatures from the melting point on and refreezing only below. With the secant search each pixel evolves as if it were alone in the domain. The latent heat of a snow-covered pixel is that of sublimation.", "quantifier": "every configuration in the physical ranges, every domain, every forcing series of any length", "why_tests_cant": "the preconditions of every process (an albedo wherever snow lies, positive densities, a balance for which the search ends) are established by other processes of the same or an earlier step; the search for the surface temperature runs over all pixels at once until the last one has converged", "anchors": ["openamundsen/model.py: _model_interface", "openamundsen/model.py: _initialize_state_variables", "openamundsen/modules/snow/cryolayermodel.py: CryoLayerSnowModel", "openamundsen/surface.py: cryo_layer_energy_balance", "openamundsen/surface.py: iterate_surface_temperature", "openamundsen/surface.py: calc_latent_heat"]}
{"id": "C125", "title": "Snow does not become denser than ice", "statement": "Compaction lets snow settle, but no snow layer ever becomes denser than ice (917 kg m-3). In particular the pore volume of a layer is never negative, so that with retention of liquid water in the pore volume the liquid water content stays non-negative and dry cold snow without rain yields no runoff.", "quantifier": "every series of air temperatures, every layer, every run of the coupled cryolayer model", "why_tests_cant": "densities near that of ice are reached only after years of undisturbed settling, far beyond the length of a test run; the effect on the water content shows only in combination with one of the two retention methods", "anchors": ["openamundsen/modules/snow/snow.py: _compaction_anderson", "openamundsen/modules/snow/snow.py: max_liquid_water_content", "openamundsen/modules/snow/cryolayermodel.py: runoff"]}
{"id": "C126", "title": "Range of the surface temperature of the multilayer energy balance", "statement": "The surface temperature of the multilayer model is the result of one linearised (Newton) step from the temperature of the previous time step. If incoming radiation and precipitation heat at the present temperature are at least the emission of a surface of temperature m and at most a stated bound that depends on M, if the air is warmer than m by enough to supply the evaporation of a surface just above m, and if the temperature of the surface layer lies between m and M, then a surface temperature between m and M stays between m and M, with and without melt. A run in which this holds at every step never divides by a zero or negative absolute temperature, so that NaN can come only from a layer that holds enough heat to melt by itself or from a thin remainder.", "quantifier": "every pixel and forcing, every m in 150..270 K and M in 300..400 K; every series of forcing", "why_tests_cant": "a single Newton step can overshoot in either direction; the combination of cold surface, strong sun and weak wind that gives the largest overshoot is not among the test cases", "anchors": ["openamundsen/surface.py: multilayer_energy_balance", "openamundsen/surface.py: solve_energy_balance"]}
{"id": "C127", "title": "Snow and soil temperatures stay within the range of surface, layers and bottom", "statement": "When the heat flux into the top layer is the conduction from a surface of given temperature, the new temperatures of all layers of a snow or soil column lie between the lowest and the highest of the surface temperature, the old layer temperatures and the bottom temperature. This is false of the code, which takes the flux at the old temperature of the top layer: with the default three-hour time step and fresh snow the top layer overshoots, and a constant surface temperature with daily time steps makes a layer swing with growing amplitude. It holds where twice the conductivity times the time step is at most thickness times areal heat capacity of the top layer. A coupled run of the multilayer model in which this and the conditions of C126 hold keeps surface, soil and snow temperatures between m and M in all time steps, and then no snow layer melts by its own heat.", "quantifier": "For all columns with positive thicknesses, conductivities and heat capacities, all temperatures, surface temperatures and time steps; for all series of meteorological values in coupled runs.", "why_tests_cant": "The overshoot depends on time step, thickness and density together and is amplified only over several steps; a test sees a plausible temperature for the few combinations it tries and cannot show that the range is kept for all of them.", "anchors": ["openamundsen/heatconduction.py:66-122", "openamundsen/modules/snow/multilayermodel.py:497-514", "openamundsen/modules/soil/soil.py:212-339"]}
{"id": "C128", "title": "The wet-bulb iteration always ends", "statement": "For air temperatures between -50 and 50 degrees C, every vapor pressure from 0 up to saturation and every psychrometric constant of at least 30 Pa/K (every pixel up to 5000 m), the loop of wet_bulb_temperature ends after at most 70 rounds, whatever the size of the grid and wherever values are missing, and every element gets the value it would get on its own: NaN where an input is missing and a number elsewhere. Above the returned temperature plus 0.15 K the psychrometric balance is positive, below it minus 0.15 K it is negative, so the true wet-bulb temperature is at most 0.15 K away; the result exceeds the air temperature by at most 0.15 K. Consequently the wet-bulb temperature of every such pixel, and unless the air is completely dry its dew point, is a number.", "quantifier": "every temperature, vapor pressure, humidity, elevation and psychrometric constant in the stated ranges", "why_tests_cant": "the loop has no limit on the number of iterations and runs until the last pixel of the grid has converged; a single unlucky pixel would hang the model, and the saturation vapor pressure has a kink and a jump at the melting point that break the usual convergence argument", "anchors": ["openamundsen/meteo/atmosphere.py:293-346", "openamundsen/meteo/atmosphere.py:86-131", "openamundsen/model.py:815-847"]}
{"id": "C129", "title": "From station data to the snow cover: no hang, no NaN, no water lost", "statement": "For every series of station records (any number of stations, values missing anywhere) for which interpolation gives temperature, humidity, precipitation and wind at every pixel of the region of interest, with temperatures between -50 and 50 degrees C at elevations up to 5000 m, every step of the meteorology (interpolation, derived variables, wet-bulb iteration over the grid, precipitation phase) ends and gives numbers at every pixel: rain and snow are not negative and add up to the interpolated precipitation, the wet-bulb temperature exceeds the air temperature by at most 0.15 K, air is not above saturation. With these fields the multilayer model keeps its water balance over the whole run: water of the layers = interpolated precipitation - sublimation - runoff - deleted thin remainders. With the cryolayer model (retention by mass fraction, moderate radiation and precipitation intensity) the whole run ends without NaN at any pixel and snow water equivalent = interpolated precipitation - sublimation - runoff.", "quantifier": "every list of stations, every series of records, every region of interest, every configuration of interpolation and phase, both snow models", "why_tests_cant": "the guarantee crosses five stages with their own numerical loops; tests run a few station sets for a few days and compare fields at single stages", "anchors": ["openamundsen/model.py:263-370", "openamundsen/model.py:815-877", "openamundsen/meteo/interpolation.py:210-355", "openamundsen/meteo/atmosphere.py:293-346"]}
{"id": "C130", "title": "Sublimation of intercepted snow solves the balances of an ice sphere", "statement": "The mass loss rate of a snow particle in the canopy is the one rate for which the heat balance of an ice sphere (absorbed radiation, heat exchanged with the air, heat of sublimation) and the vapour flux from its surface hold together, with the saturation vapour density linearised around air temperature. It is a loss whenever relative humidity does not exceed 100 %, the loss grows with radiation and wind and falls with humidity and never needs more energy than radiation and the air can deliver; a missing input gives no sublimation. The saturation vapour density is that of water vapour at air temperature: this is false, the ratio of the molar masses is applied twice, the density is 0.622 times what it should be, and the loss is too small.", "quantifier": "every weather, particle radius and air viscosity", "why_tests_cant": "an equation system with a solution for all real inputs; a test fixes the numbers the formula gives and so the wrong density too", "anchors": ["openamundsen/modules/canopy/canopy.py: CanopyModel.snow (lines 128-184)", "openamundsen/meteo/atmosphere.py: absolute_humidity"]}
{"id": "C131", "title": "The glacier geometry update keeps the ice mass of the domain", "statement": "Writing back the new ice thickness at the end of a mass balance year keeps the water equivalent of pixels that are not updated (other glaciers, thin ice, glaciers with less than two thick pixels) and the sum over the updated pixels of a glacier. This is false: ice content is set to thickness times 917 for all pixels while thickness was derived with the density of the firn-ice transition (default 900) from ice and liquid water together, so every pixel that is not updated gains 1.9 % of its ice each year, without bound over the years, and liquid water in the ice layer is counted twice. It holds with a transition density of 917, no liquid water in the ice layer and no pixel that would lose more than its ice.", "quantifier": "every set of pixels, glaciers, layers and transition density; any number of years", "why_tests_cant": "sums over arbitrary grids and unbounded growth over the years", "anchors": ["openamundsen/modules/glacier/glaciermodel.py: _update_geometry (lines 60-131)", "openamundsen/modules/snow/cryolayermodel.py: update_layers, compaction"]}
{"id": "C132", "title": "One ground heat flux links the energy balance of the surface with the heat content of snow and soil", "statement": "In a time step of the multilayer model with all parts acting together, the surface energy balance is solved for the snowpack that includes the snow fallen in this step: where it holds any water, moisture is fully available, and without snow the surface has the albedo and the thermal properties of the soil. Below and at the surface one heat flux G is exchanged, the conductive flux between the new surface temperature and the uppermost layer (snow, soil, or their mixture for a thin cover). Radiation, turbulent fluxes and heat brought by precipitation, minus G, supply exactly the energy of melt (to first order in the temperature change, exactly while ice melts at 0 \u00b0C); the surface is above 0 \u00b0C with ice in the top layer only if all ice melts. The snow layers together gain G minus the heat leaving their base; without snow the soil layers together gain G minus the heat leaving the lowest one. If no layer is warmed above 0 \u00b0C, the melt is the melt demand of the surface, limited by the ice. The heat leaving the snow is the heat entering the soil.", "quantifier": "all configurations, all forcings in natural ranges, all snow, soil and surface states satisfying the invariant of C122, any numbers of layers", "why_tests_cant": "The energy passes through six modules that each keep their own copy of fluxes and temperatures; a test of one module cannot show that what one books out another books in, and integration tests compare outputs with stored runs.", "anchors": ["openamundsen/surface.py:603-803", "openamundsen/modules/snow/multilayermodel.py:70-91", "openamundsen/modules/snow/multilayermodel.py:497-514", "openamundsen/modules/soil/soil.py:212-339", "openamundsen/model.py:354-382"]}
{"id": "C133", "title": "Data at the model time step keep their dates", "statement": "Station data which already have the model time step reach the model unchanged: at every date of the run the value of every variable (precipitation, wind gusts, all others) is that of the record of the file with this date, whatever the setting of aggregate_when_downsampling and however the time step is spelled in the configuration (h, 1h, 60min; D, 1D, 24h).", "quantifier": "every series of records without gaps aligned with the start date, every period, time step up to one day, every spelling of the time step", "why_tests_cant": "the spelling of the time step decides whether the data pass through resampling, and the tests use the spelling pandas infers; what resampling does to every record cannot be enumerated", "anchors": ["openamundsen/fileio/meteo.py: _slice_and_resample_dataset, _resample_dataset"]}
{"id": "C134", "title": "Missing elevations do not spread", "statement": "Every pixel with an elevation gets terrain parameters (slope, aspect, normal vector, curvature) and clear-sky direct irradiance, also if other pixels of the elevation model have no data (for example a raster clipped to the catchment).", "quantifier": "every elevation model with any set of pixels without data, every size of at least three rows and columns, every pixel including those of the border, every sun position", "why_tests_cant": "the tests use complete elevation models or look at the interior; which cells are read for which pixel has to be known for every pixel and every pattern of missing data", "anchors": ["openamundsen/terrain.py: slope_aspect, normal_vector, curvature", "openamundsen/modules/radiation/clearsky.py: _clear_sky_shortwave_irradiance"]}
{"id": "C135", "title": "Replaying recorded forcing reproduces the run", "statement": "A run driven by a callback that assigns, in every time step, the fields of temperature, precipitation, relative humidity, wind speed, cloud factor and cloud fraction recorded at the end of the same time step of a run driven by station data ends every time step with the same meteorological fields and the same state.", "quantifier": "every number of time steps, every grid, all station data and settings, every model of the snow cover and the surface driven by these fields", "why_tests_cant": "a test compares one configuration; whether the recorded fields are those the callback has to assign depends on everything that changes them during a time step (snow redistribution, canopy)", "anchors": ["openamundsen/model.py: run_single, _process_meteo_data, _irradiance", "openamundsen/modules/canopy/canopy.py: CanopyModel.meteorology"]}
{"id": "C136", "title": "Parallel loops at the level of single memory accesses", "statement": "In the parallel loops of the snow and soil models and of the interpolation every iteration touches, apart from reading arrays the loop does not write, only cells of its own pixel; so whatever the interleaving of the individual reads and writes of the threads, when all iterations have ended every pixel of the region of interest holds the result of its own computation (melt, sublimation, runoff and refreezing, compaction, heat conduction, relayering, soil heat flux, soil properties, interpolated value) and all other memory is unchanged; an iteration always ends.", "quantifier": "every region of interest, every content of the arrays, every interleaving of the reads and writes of all iterations", "why_tests_cant": "A test observes one or a few schedules on one machine; data races show up rarely and depend on timing. Only reasoning over all interleavings of single accesses excludes them.", "anchors": ["openamundsen/modules/snow/multilayermodel.py:213-653", "openamundsen/modules/snow/snow.py:137-332", "openamundsen/modules/soil/soil.py:30-339", "openamundsen/interpolation.py:18-50"]}
{"id": "C137", "title": "Rounding does not break signs and water balance of the snowpack", "statement": "In floating point arithmetic the ice and liquid water contents of the cryolayer model never become negative, and after any run of N time steps stored water plus reported runoff and sublimation equals initial water plus snowfall, rain and deposition up to a relative error of (1 + u)^(27 N) - 1, where u is the relative error of one operation. Melt that takes all the ice of a pixel leaves a snow-free pixel. The last part is false: the melt of the layers is summed up and then subtracted layer by layer with rounding, so that a remainder of ice can stay although exact arithmetic leaves none.", "quantifier": "every number of binary digits, every rounding direction, every state and every series of inputs of any length", "why_tests_cant": "rounding errors depend on every bit of the inputs and accumulate over runs of any length; a test compares with a tolerance chosen by hand", "anchors": ["openamundsen/modules/snow/cryolayermodel.py: melt, sublimation, runoff, update_layers, layer_transition, add_snow", "openamundsen/surface.py: cryo_layer_energy_balance (lines 285-338)"]}
{"id": "C138", "title": "Relayering in floating point arithmetic stays within the arrays and loses no water", "statement": "The redistribution of the snow of the multilayer model to the new layers, calculated in floating point arithmetic, never writes behind the end of the arrays, never gives 0/0, fills every new layer, keeps contents non-negative and keeps depth and every non-negative content (ice, liquid water) up to rounding. This holds if all old and new layers are thicker than the accumulated rounding error of the thicknesses (9 u times the larger of snow depth and minimum thickness for each layer and slot, less than a micrometre): then the content changes by at most the relative error (1 + u)^(2 (n + m)) - 1 for n layers and m slots plus the content of a slice of the thickness of that error. It is false without this condition: with double precision, the default layers and a snowpack of 2 m above a layer thinner than one unit in the last place, the loop runs out of new layers in the upper layer and then adds the lower one to a layer behind the end of the arrays (numba does not check bounds).", "quantifier": "every number of binary digits and rounding direction, every number and thickness of old layers, every configured list of minimum thicknesses, every content", "why_tests_cant": "whether the loop runs out of new layers depends on the last bit of quotients and products of thicknesses; exact arithmetic never does, and a write behind an array is not reported", "anchors": ["openamundsen/modules/snow/multilayermodel.py: _update_layers (lines 572-653)", "openamundsen/modules/snow/snow.py: snow_properties (line 352)"]}
{"id": "C139", "title": "Terrain parameters and shadows have no preferred direction", "statement": "If the elevation model is mirrored (east-west or north-south) or transposed (mirrored at the diagonal), and the sun vector with it, slope, aspect, curvature, normal vectors, angle of incidence and shadows of the mirrored pixels are those of the original ones, mirrored. Proved for slope, aspect (as a direction), curvature at all pixels including the borders, and for shadows under transposition, and under mirroring if the number of columns (rows) is odd or no scan line passes exactly between two pixels. False for normal vectors: they belong to the north-east corner of the pixel, so the mirrored terrain gets the normal vector of the neighbour; a symmetric ridge gets unequal irradiance on its crest. False for shadows with an even number of columns: np.round rounds ties to even column numbers, which the mirroring exchanges.", "quantifier": "every elevation model of at least 3 x 3 pixels, every pixel, every position of the sun, every number of sweeps", "why_tests_cant": "tests compare single terrains; a bias of half a pixel is below the tolerance of such comparisons, and symmetry has to hold for all terrains", "anchors": ["openamundsen/terrain.py: slope_aspect, normal_vector, curvature", "openamundsen/modules/radiation/shadows.py: shadows", "openamundsen/modules/radiation/clearsky.py (lines 101-105)"]}
{"id": "C140", "title": "The simulation period does not change the forcing of a date", "statement": "The meteorological fields of a date do not depend on the start and end dates of the simulation: two runs over different periods that both contain the date, reading the same station files, get the same interpolated fields of temperature, precipitation, humidity, wind speed and direction at all pixels (and the same gusts if the fields are reset before a time step). This holds although the stations that take part are those with records within the period, and although variables exist in the combined dataset only if a station of the period has them. The precipitation correction of a date depends on no other date. If station data have to be resampled, a later end date changes neither the set of the earlier dates nor their values.", "quantifier": "every set of station files (csv and netCDF), every pair of periods, every date in both, all interpolation settings; every pair of end dates for resampled data", "why_tests_cant": "tests run single periods; which stations take part, which variables exist and how the bins of the resampling are laid out changes with the period, and equality has to hold for all data sets", "anchors": ["openamundsen/fileio/meteo.py: read_meteo_data, _slice_and_resample_dataset, _resample_dataset", "openamundsen/forcing.py: combine_point_datasets", "openamundsen/meteo/interpolation.py: interpolate_station_data", "openamundsen/meteo/precipcorr.py: correct_station_precipitation"]}
{"id": "C141", "title": "Forcing passed in memory is left unchanged and corrected once", "statement": "The forcing dataset a user passes to `initialize` is never changed by it, whatever the settings and whether or not the initialisation succeeds, although the model corrects precipitation and extends the region of interest in place. So one dataset can be used for any number of models with any settings, one after the other: at the end the dataset is as it was, and the forcing of every model is the one a single model would have obtained from the original data - with the coordinates of its own grid, the original values of all other variables, variables unknown to the model dropped, and precipitation corrected exactly once by its own corrections. Datasets that lack a required variable, have other dimensions or other dates are rejected, and so is prescribed cloudiness without cloud data (always, if the forcing comes from a callback). Precipitation is also corrected only once if the forcing of an initialised model (`model.meteo`) is passed on to another model.", "quantifier": "every dataset, every sequence of model initialisations with arbitrary settings, every correction and grid", "why_tests_cant": "tests initialise one model from a fresh dataset; whether arrays are shared between the dataset of the user and the models shows only in particular sequences of initialisations and corrections", "anchors": ["openamundsen/model.py: OpenAmundsen.initialize", "openamundsen/forcing.py: prepare_point_coordinates, is_valid_point_dataset, make_empty_point_dataset", "openamundsen/meteo/precipcorr.py: correct_station_precipitation"]}
{"id": "C142", "title": "The bounds setting selects the stations within the grid", "statement": "With `bounds: grid` the stations that are read are exactly those the model regards as within the grid extent (and so can interpolate at, extend the region of interest with and write point outputs for); with `bounds: global` all stations are read; with a list of four numbers those within that rectangle. Exclusions and inclusions apply on top of this.", "quantifier": "every grid, every station position, all bounds, exclusion and inclusion settings", "why_tests_cant": "the two criteria are written independently of each other, as comparisons of coordinates and of cell numbers; whether they agree matters at edges that tests do not hit", "anchors": ["openamundsen/model.py: OpenAmundsen._read_meteo_data", "openamundsen/fileio/meteo.py: _apply_station_rules", "openamundsen/forcing.py: prepare_point_coordinates", "openamundsen/util.py: ModelGrid"]}
{"id": "C143", "title": "Gaps in the weather data end with the gap", "statement": "The meteorological values of a pixel may be missing in any time step and in any combination (temperature, humidity, precipitation, wind, radiation and what is derived from them). The state carried over to the next time step still consists of numbers: for the multilayer snowpack with soil and surface temperature unless one of the situations of C122 arises, for the cryolayer snowpack, the water stored in the canopy and the storages of the evapotranspiration model. Contents are never negative and snow water equals precipitation (missing values counted as none) minus sublimation and runoff. While a term of the energy balance is missing, the surface keeps its temperature and no snow is melted by the energy balance; while the moisture flux is missing nothing sublimates. Time steps with all values give the result of the model without gaps.", "quantifier": "every configuration in the physical ranges, every series of weather data of any length with any pattern of missing values", "why_tests_cant": "The number of patterns of missing values grows exponentially with variables and time steps, and NaN spreads silently through array operations; tests use complete data or a few gaps and look at the gap itself rather than at the rest of the run.", "anchors": ["openamundsen/surface.py:109-202", "openamundsen/surface.py:205-345", "openamundsen/surface.py:706-787", "openamundsen/modules/snow/snow.py:61", "openamundsen/modules/snow/snow.py:100", "openamundsen/modules/snow/snow.py:235", "openamundsen/modules/snow/multilayermodel.py:108-210", "openamundsen/modules/canopy/canopy.py:186-236", "openamundsen/modules/evapotranspiration/evapotranspiration.py:412-598", "openamundsen/model.py:861-875"]}
{"id": "C144", "title": "Radiation stations around the grid", "statement": "With an extended DEM, cloudiness from measured radiation uses exactly the stations within the grid that measure shortwave radiation and the stations outside of the grid but within the extended DEM that measure shortwave radiation, temperature and humidity, each once and at its own position; the measurement is divided by the clear-sky irradiance of the cell that contains the station, for stations outside of the grid the cell of the extended DEM. The fallbacks count both kinds of stations. Without an extended DEM, or without such stations around the grid, the result is that of the stations within the grid alone. In every case the cloud factor stays within 0 and 1 and within the range of the ratios of the stations used. A radiation station that is covered by the extended DEM is never the reason for a missing cloud factor.", "quantifier": "all grids, extended grids, station sets, settings and sequences of time steps", "why_tests_cant": "The selection depends on index arithmetic with offsets between two grids, on which values are missing at which station, and on the order in which two selections are appended; tests use a handful of stations and no extended DEM.", "anchors": ["openamundsen/modules/radiation/irradiance.py:92-157", "openamundsen/modules/radiation/irradiance.py:183-222", "openamundsen/modules/radiation/irradiance.py:254-283", "openamundsen/model.py:688-768", "openamundsen/forcing.py:279-362"]}
{"id": "C145", "title": "Appending gridded output", "statement": "With the append option the NetCDF file of gridded outputs contains, after every time step, exactly the records of the output dates reached so far, in order, each with its time, the bounds of its interval if the field is aggregated, and the values that the file without the option has at this date; fields that share a time axis never have records of different length. After the run both files have the same contents.", "quantifier": "all sets of output fields, output dates, model time axes and every time step of the run", "why_tests_cant": "The file grows through writes of several fields to shared unlimited dimensions, and depends on where the output dates lie on the model time axis; a test reads one file after one run with regular frequencies.", "anchors": ["openamundsen/fileio/griddedoutput.py:145-193", "openamundsen/fileio/griddedoutput.py:237-262", "openamundsen/fileio/griddedoutput.py:343-411"]}
{"id": "C146", "title": "The order of the stations does not matter", "statement": "The meteorological fields of a date, the cloud factor and the inputs of the snow models are the same whatever the order in which the stations are read (names of the files, rows of the station table), whatever stations are added that have no usable record of a variable, and whatever the common origin of the coordinates of stations and pixels.", "quantifier": "all settings of the interpolation and of the cloud factor, all sets of stations and records, regions of interest, permutations, added stations, shifts and sequences of time steps", "why_tests_cant": "A test reads one directory in one order; the result passes through regressions, detrending, early exits of loops and ranges of the data that could all depend on the order.", "anchors": ["openamundsen/interpolation.py:19-50", "openamundsen/meteo/interpolation.py:15-79", "openamundsen/meteo/interpolation.py:210-355", "openamundsen/modules/radiation/irradiance.py:159-283", "openamundsen/fileio/meteo.py:88-164"]}
{"id": "C147", "title": "CSV point output loses nothing", "statement": "After a run with CSV point output the file of every point consists of one header line and one row per model date; the column with the name of a two-dimensional output variable contains its values, and for every layer i of a three-dimensional variable the column with the name of the variable followed by i contains the values of this layer; no column is missing, overwritten or shifted against the header, however the run is divided into chunks. With in-memory output the dataset contains the same values.", "quantifier": "all accepted lists of output variables, numbers of layers, points, write dates, model dates, values and existing files", "why_tests_cant": "The expansion of layers is done in a loop that renames and drops variables of a dataset by name; whether a name is overwritten depends on the combination of all configured names and layer numbers, and whether rows line up with the header on all chunks of the run.", "anchors": ["openamundsen/fileio/pointoutput.py:372-456", "openamundsen/fileio/pointoutput.py:185-190"]}
{"id": "C148", "title": "Bare ground follows the surface energy balance, also on dry soil", "statement": "With the multilayer snow model, the surface temperature of snow-free ground follows the surface energy balance: with a surplus of energy the surface warms, with a deficit it cools, for every soil moisture that can be configured, also for completely dry soil (`soil.init_moisture_content: 0`). Soil moisture affects snow-free ground only: while the pixel is covered with snow the step does not depend on the conductance of the soil surface.", "quantifier": "every configuration in the physical ranges, every weather, every state, series of any length", "why_tests_cant": "The unfrozen fraction of dry soil is never written and keeps the NaN it was created with; the energy balance silently replaces the resulting NaN temperature change by zero. No exception is raised and all output consists of numbers, so that only a comparison of the temperature with the fluxes for every moisture shows it.", "anchors": ["openamundsen/surface.py:44-58", "openamundsen/surface.py:565-571", "openamundsen/surface.py:745-780", "openamundsen/modules/soil/soil.py:112-209", "openamundsen/modules/soil/init.py:78", "openamundsen/data/configschema.yml:905-907"]}
{"id": "C149", "title": "The region of interest only selects pixels", "statement": "Reducing the region of interest does not change the results of the remaining pixels: with the same stations, terrain, configuration and incoming radiation, temperature, humidity, wind, pressure, wet-bulb temperature, rain and snow of a pixel, and hence its snow cover and soil over the whole run, are the same whether the other pixels are simulated or not; in particular a single pixel can be simulated alone.", "quantifier": "every configuration, set of stations, terrain, region of interest and subset of it, series of any length", "why_tests_cant": "The fields are calculated with array operations over all pixels of the region of interest, some of them with loops that end when all pixels are done, or with minimum and maximum over the pixels; a test compares one pair of regions.", "anchors": ["openamundsen/meteo/interpolation.py:210-355", "openamundsen/meteo/interpolation.py:534-591", "openamundsen/util.py:360-384", "openamundsen/meteo/atmosphere.py:318-346", "openamundsen/model.py:263-290", "openamundsen/model.py:815-877", "openamundsen/surface.py:843-903"]}
{"id": "C150", "title": "Where the whole sky is visible, radiation does not depend on the other pixels", "statement": "At a pixel that sees the whole sky, incoming shortwave and longwave radiation do not depend on which other pixels are simulated nor on their shading and snow cover. Where part of the sky is hidden, direct irradiance still does not, and longwave radiation lies between its values for completely snow-covered and completely snow-free surroundings and changes in proportion to the share of snow-free pixels.", "quantifier": "all pixels, regions of interest, snow covers, shadows, albedos and atmospheric conditions", "why_tests_cant": "The share of snow-free pixels, the share of lit pixels, the mean angle of incidence and the mean albedo are averages over the whole region of interest and enter the formulas of every pixel; a test has one region.", "anchors": ["openamundsen/modules/radiation/irradiance.py:18-89", "openamundsen/modules/radiation/irradiance.py:286-329", "openamundsen/modules/radiation/clearsky.py:171-196"]}
{"id": "C151", "title": "Surface temperature stays within the range of what drives it", "statement": "The surface temperature after the energy balance is not lower than the lowest and not higher than the highest of: the previous surface temperature, the temperature of the layer below, the air temperature (lowered or raised by what evaporation or condensation costs or yields), and the temperature at which the absorbed radiation is emitted; a surface holding ice may in addition be held at the melting point. In particular it stays positive.", "quantifier": "all pixels with physical parameters, all surface, air and layer temperatures, radiation, humidity, precipitation and ice contents", "why_tests_cant": "The surface temperature is one linearised step with emitted radiation, evaporation and conduction in the denominator, but not heat advected by precipitation; whether a step overshoots its drivers depends on the ratio of all coefficients, of which a test shows single values.", "anchors": ["openamundsen/surface.py:109-202", "openamundsen/surface.py:706-787"]}
{"id": "C152", "title": "Splitting a time step does not change the outcome", "statement": "With forcing that does not change during a time step, dividing it into any number of shorter steps of equal length gives the same snow: ageing and refreshing of the albedo, temperature-index melt, sublimation and deposition, accumulation of snowfall, drainage of rain and liquid water, and settling lead to the same layers and, added up, to the same amounts.", "quantifier": "all snow layers with non-negative contents, all configurations, weather, time step lengths and numbers of sub-steps", "why_tests_cant": "Tests run one time step length at a time and compare with recorded numbers; that the outcome is independent of the division is a relation between runs of arbitrarily many steps, and depends on each formula being exact in time.", "anchors": ["openamundsen/modules/snow/snow.py:39-73", "openamundsen/modules/snow/snow.py:191-244", "openamundsen/modules/snow/snow.py:300-332", "openamundsen/modules/snow/cryolayermodel.py:176-297", "openamundsen/modules/snow/cryolayermodel.py:420-464"]}
{"id": "C153", "title": "More snowfall or colder weather never leaves less ice in the snow pack", "statement": "With temperature-index melt, compare two simulations of a pixel. If in every time step the first gets at least as much snow, is not warmer (for the enhanced method: and neither receives more radiation nor has a lower albedo) and loses not more by sublimation, and it starts with at least as much ice, then at every time it holds at least as much ice; in particular it does not become free of snow, firn and ice earlier. A smaller degree-day factor or a higher threshold temperature has the same effect. Rain, densities, compaction, the limits of liquid water and the transitions between the layers have no influence on the comparison.", "quantifier": "all pairs of configurations, initial pixels and input sequences of any length so ordered", "why_tests_cant": "It is a relation between two runs of arbitrary length; the amount melted in a step is bounded by what there is, so a run with more snow may melt more in a step, and whether the order survives each step for all states is not visible in recorded numbers.", "anchors": ["openamundsen/modules/snow/cryolayermodel.py:126-297", "openamundsen/modules/snow/snow.py:246-332", "openamundsen/model.py:351-377"]}
{"id": "C154", "title": "Once the snow is gone, what was before is forgotten", "statement": "When the cryolayer model has lost all snow, firn and ice of a pixel in a time step, all quantities of its layers and its albedo are those of the initialisation; whatever the state at the beginning of the simulation was, two runs with the same inputs are identical from the first time both are without ice. With temperature-index melt this is the first time the run that started with more ice is without ice: the choice of the initial snow pack has no influence afterwards. In the multilayer model two runs with the same inputs likewise have the same fluxes and states in all time steps after both were without snow.", "quantifier": "all configurations, all pairs of initial states, all input sequences before and after", "why_tests_cant": "Left-overs of an emptied layer (densities, albedos, cold contents) would show only in particular later circumstances; that no later behaviour whatsoever depends on them is a statement about all continuations.", "anchors": ["openamundsen/modules/snow/cryolayermodel.py:78-93", "openamundsen/modules/snow/cryolayermodel.py:299-366", "openamundsen/modules/snow/cryolayermodel.py:368-408", "openamundsen/model.py:351-377"]}
{"id": "C155", "title": "Errors of the input do not grow", "statement": "With temperature-index melt the ice contents of two simulations of a pixel never differ by more than they did at the beginning plus the sum of the differences of snowfall, potential melt and potential sublimation in the time steps since; with the same weather the difference never increases. With the classical method an error of the temperature of one kelvin during a day costs at most one degree-day factor (kg m-2) of ice.", "quantifier": "all pairs of initial states and input sequences of any length", "why_tests_cant": "It is a bound for the difference of two runs for all perturbations and lengths; a test can perturb a given run by a given amount only.", "anchors": ["openamundsen/modules/snow/cryolayermodel.py:126-297", "openamundsen/model.py:351-377"]}
{"id": "C156", "title": "A pixel with more rain is never drier", "statement": "Of two simulations of a pixel with the same snow cover, land cover and soil, the one with at least as much rain and at most as much potential evaporation in every time step, and at least as much water at the beginning, has at least as much water at the end: at least as much intercepted water on sealed surfaces, a root zone that is depleted no more on vegetated soils. With the same weather the amounts of the two simulations approach each other.", "quantifier": "all pairs of initial states and input sequences of any length", "why_tests_cant": "It compares two runs for all weather sequences; a test compares single pairs of runs, and the cases in which the order is reversed need a certain sequence of dry and wet time steps.", "anchors": ["openamundsen/modules/evapotranspiration/evapotranspiration.py:329-352", "openamundsen/modules/evapotranspiration/evapotranspiration.py:412-598"]}
{"id": "C157", "title": "Both layouts of the gridded output hold the same fields", "statement": "A field written with the layout for the pixels of the region and converted to a grid is the field written with the grid layout: the values of the region are the same, and the cells outside of the region have no data in both, for float and integer variables, in memory and after reading the files.", "quantifier": "all grids, regions, fields and kinds of variables", "why_tests_cant": "The existing test compares the layouts for three float variables in memory; that the fill values of all types survive writing, reading and conversion is a statement about all fields and about the interplay with the decoding of files.", "anchors": ["openamundsen/util.py:99-179", "openamundsen/fileio/griddedoutput.py:240-256", "openamundsen/fileio/griddedoutput.py:485-560", "openamundsen/fileio/griddedoutput.py:594-619"]}
{"id": "C158", "title": "A warmer column never ends colder", "statement": "Of two snow or soil columns with the same layers and thermal properties, the one that is nowhere colder at the beginning and has at least the same surface heat flux and bottom temperature in every time step is nowhere colder at the end. With the same surface heat flux the largest difference of the temperatures never grows, and an additional surface heat flux warms the column by at most the energy supplied.", "quantifier": "all numbers of layers, thicknesses, thermal properties, time steps and run lengths", "why_tests_cant": "A comparison of two runs for all columns and all time step lengths; schemes that are unstable or oscillate for long time steps pass tests with short ones.", "anchors": ["openamundsen/heatconduction.py:8-224", "openamundsen/modules/soil/soil.py:215-250", "openamundsen/modules/snow/multilayermodel.py:441-514"]}
{"id": "C159", "title": "Errors of a station do not grow in the fields", "statement": "If one or more stations measure more, no pixel gets less, and if the measurements of all stations change by at most some amount, the interpolated values of all pixels change by at most this amount, whatever the positions of the stations and pixels are.", "quantifier": "all station networks, measurements, positions and elevations of pixels, trend methods, with and without extrapolation", "why_tests_cant": "It is a bound for all perturbations of all networks; a test perturbs a few networks, and the amplification by a fitted elevation trend depends on the arrangement of the stations.", "anchors": ["openamundsen/interpolation.py:19-110", "openamundsen/meteo/interpolation.py:60-79", "openamundsen/meteo/interpolation.py:358-531"]}
{"id": "C160", "title": "Openness is an angle of the terrain around a pixel", "statement": "Topographic openness is between 0 and 180 degrees, 90 degrees on flat terrain and on every inclined plane, does not depend on the zero of the elevations or on the unit of length, never grows with the radius or with the height of the terrain around a pixel, and positive and negative openness of a pixel add up to at most 180 degrees.", "quantifier": "all elevation models, resolutions, radii of at least one pixel, directions and pixels", "why_tests_cant": "The statements relate results for all pairs of terrains, units and radii; tests check a few rasters, and the treatment of the border (retained elevations) only shows on inclined terrain.", "anchors": ["openamundsen/terrain.py:288-333", "openamundsen/terrain.py:336-371", "openamundsen/terrain.py:421-464"]}
{"id": "C161", "title": "Higher surroundings never let in more light", "statement": "If the terrain around a cell is raised anywhere and the cell keeps its elevation, a cell in shadow stays in shadow for every position of the sun, and the sky view factor of the cell does not grow.", "quantifier": "all elevation models (with the same missing cells), sun positions, numbers of sweeps, lists of azimuths and cells", "why_tests_cant": "It compares all pairs of rasters; a test raises a few cells, and the search for the horizon depends on the steepest slope of the whole raster.", "anchors": ["openamundsen/modules/radiation/shadows.py:9-96", "openamundsen/terrain.py:138-226"]}
{"id": "C162", "title": "A pixel near a station gets nearly its value", "statement": "Without smoothing, the interpolated value at a pixel differs from the value of a station at distance d by at most n * rho * (d / D)^power, where n is the number of usable stations, D a distance that all other stations keep from the pixel and rho the largest difference between the station values; hence the field has no jump at a station that shares its position with no other. If all stations are nearly equally far away, the value is nearly their mean: with distances between D and D' it differs from the mean by at most rho * ((D' / D)^power - 1).", "quantifier": "every number and arrangement of stations, values with gaps, targets and positive powers", "why_tests_cant": "A limit statement over a continuous domain: a test evaluates finitely many pixels at finite distances.", "anchors": ["openamundsen/interpolation.py:19-110"]}
