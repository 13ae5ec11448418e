{
 "C02": {
  "status": "partial",
  "note": "A call whose time step raises leaves the thread count changed (C02_restored_false); C02_restored_partial covers every call that returns."
 },
 "C06": {
  "status": "partial",
  "note": "reset raises for non-retained bool variables (C06_bool_false); none are declared in the code base."
 },
 "C07": {
  "status": "partial",
  "note": "The names 'categories' and '_categories' break the claim (C07_raise_witness, C07_overwrite_witness)."
 },
 "C11": {
  "status": "partial",
  "note": "A pixel of the region of interest without elevation that counts as pure rain switches the rule off in the whole domain (C11_missing_elevation_false); such pixels arise when the region is extended to stations outside the elevation model (C103_roi_elevation_false). C11_no_snow_below_rain_partial covers all domains in which the pure-rain pixels have an elevation."
 },
 "C23": {
  "status": "partial",
  "note": "False of the code (multilayermodel.py:509 passes the last snow slot). Negation proved in C23_coupling_false; C23_bottom_boundary_partial states what holds."
 },
 "C39": {
  "status": "partial",
  "note": "Depletion and reduction coefficient bounds proved; the refill claim is false of the code (C39_refill_false), C39_rain_after_dry_partial states what happens instead."
 },
 "C42": {
  "status": "proved",
  "note": "Includes the failure for sub-cycles (C42_subcycles_false)."
 },
 "C57": {
  "status": "partial",
  "note": "Proved, except that regression over stations at a single elevation yields a spurious gradient (C57_regression_flat_false) and shift invariance needs two different elevations for regression."
 },
 "C58": {
  "status": "partial",
  "note": "False of the code: with extrapolation disabled humidity is 100 % everywhere (C58_false)."
 },
 "C64": {
  "status": "partial",
  "note": "All wmo gauges except hellmann raise (C64_gauges_false); kochendorfer and hellmann can reduce precipitation (C64_koch_false, C64_hellmann_mixed_false)."
 },
 "C67": {
  "status": "partial",
  "note": "At border cells the gradient component across the border is halved, so the slope is too small (C67_border_false); C67_plane_interior_partial covers every interior cell. The remaining clauses are proved for all cells."
 },
 "C70": {
  "status": "partial",
  "note": "The numba prange loop updates the minimum without synchronisation: an interleaving loses an update (C70_race_false). C70_atomic_partial and C70_any_schedule hold when iterations are atomic."
 },
 "C72": {
  "status": "proved",
  "note": "Includes the failure for missing elevations, which light later cells of a sweep (C72_missing_false)."
 },
 "C73": {
  "status": "partial",
  "note": "The range is proved; flat terrain of more than one cell gets cos(1 deg)^2 instead of 1 (C73_flat_false). C73_flat_partial: flat terrain is lit from every examined elevation."
 },
 "C74": {
  "status": "partial",
  "note": "The air mass limit is ineffective for low sun (C74_air_mass_false); C74_air_mass_partial states what holds. All other clauses are proved."
 },
 "C75": {
  "status": "partial",
  "note": "Availability is false if the only radiation station is within the grid but outside the domain (C75_outside_domain_false); C75_available_partial states the proviso. The range is an invariant of every run."
 },
 "C79": {
  "status": "partial",
  "note": "Warming, melt and partial melt proved. False of the code: the reported sensible heat flux is corrected with the wrong sign (C79_sensible_false), the moisture flux belongs to the old temperature (C79_moisture_false), and melt can exceed the ice slightly (C79_melt_exceeds_ice_witness, bounded in C79_melt_bound). C79_closure_partial is the linearised balance."
 },
 "C80": {
  "status": "partial",
  "note": "Both searches proved, including termination of the secant loop, also for the saturation humidity formula of the program with its jump at the melting point (C80_secant_terminates_humidity). False of the code: the stepwise search depends on the coldest pixel of the domain (C80_other_pixels_false), and after the secant search the humidity may belong to a temperature above the melting point (C80_secant_humidity_false)."
 },
 "C82": {
  "status": "partial",
  "note": "Flux direction and extrema proved; heat passes through the bottom whenever the lowest layer changes temperature (C82_bottom, C82_leak_false), C82_balance_partial is the exact balance."
 },
 "C83": {
  "status": "partial",
  "note": "Proved for the formula used in the model; the library function dry_air_density multiplies instead of dividing (C83_library_false)."
 },
 "C84": {
  "status": "partial",
  "note": "False of the code in freezing soil: the temperature enters in kelvin (C84_freezing_false); holds above the freezing threshold."
 },
 "C85": {
  "status": "partial",
  "note": "Proved for variables, order, rates and units other than cloud cover; the cloud cover check counts variables instead of looking at values (C85_cloud_false, C85_cloud_units_false)."
 },
 "C86": {
  "status": "partial",
  "note": "Times, order, values and reindexing proved; a gap between the files leads to a missing date and a KeyError in the run (C86_gap_false)."
 },
 "C89": {
  "status": "partial",
  "note": "Proved for runs starting at midnight or, for aggregates, at a multiple of the time step unit and reaching the end of the first period; false otherwise (C89_unaligned_false, C89_end_false, C89_half_month_witness)."
 },
 "C90": {
  "status": "partial",
  "note": "Update dates proved; the mass balance omits the first time step of the mass balance year (C90_balance_false), C90_balance_partial is the exact value."
 },
 "C91": {
  "status": "partial",
  "note": "Proved for the regression; with fixed or fractional methods and more than one segment the profile raises (C91_segments_false)."
 },
 "C92": {
  "status": "partial",
  "note": "Proved for plain frequencies; anchored ones such as W-WED or A-MAY are misread (C92_anchored_false, C92_anchored_witness)."
 },
 "C93": {
  "status": "partial",
  "note": "Points, names and layers proved; names of coordinates are accepted as output names and fail later (C93_reserved_false), C93_dataset_partial covers all other names."
 },
 "C94": {
  "status": "partial",
  "note": "Shared coordinates proved for all fields; indices and bounds for increasing write dates that are model dates (all dates from frequencies), false for other configured dates (C94_unsorted_false, C94_between_false)."
 },
 "C95": {
  "status": "partial",
  "note": "False if an output name ends like a layer or date suffix (C95_layer_false); proved for all other names."
 },
 "C97": {
  "status": "partial",
  "note": "False for the air density, which is multiplied by the virtual temperature instead of divided (C97_density_false); everything else proved."
 },
 "C99": {
  "status": "partial",
  "note": "False for humidity on dates without any temperature (C99_hum_false) and for the adjustment factor, which divides by zero at some elevations (C99_adjustment_false). Measured values kept, values and dates proved for all trend methods; for temperature and wind exactly when a value stays missing (C99_missing_iff); humidity: C99_hum_partial."
 },
 "C102": {
  "status": "partial",
  "note": "Proved for all configurations and all module behaviours respecting the read/write table, with the glacier model until the first mass balance year ends; false afterwards, since the glacier ids are not retained (C102_glaciers_false)."
 },
 "C103": {
  "status": "partial",
  "note": "False for stations added on nodata pixels of the DEM (C103_roi_elevation_false) and for glacier rasters whose nodata value is positive (C103_glaciers_false); everything else proved."
 },
 "C105": {
  "status": "partial",
  "note": "Consistency proved; the last part is false for forest pixels, whose temperature and humidity are changed after the derived variables have been calculated (C105_forest_false, C105_forest_witness)."
 },
 "C106": {
  "status": "partial",
  "note": "Proved for the padding modes and n >= 1; in the retain mode values move by n + 1 pixels (C106_retain, C106_retain_false), and a padded shift by 0 pixels loses all columns (C106_zero_false)."
 },
 "C107": {
  "status": "partial",
  "note": "False for shallow evaporation layers (C107_evaporable_false) and for large depletion fractions on coarse soils (C107_available_false); everything else proved."
 },
 "C108": {
  "status": "partial",
  "note": "Proved for all runs with given precipitation and temperature, for both snow models and pixels within and outside of the forest; false after a missing value in a forest pixel: the intercepted load stays missing and all later snowfall is lost (C108_missing_step_witness, C108_missing_false)."
 },
 "C111": {
  "status": "partial",
  "note": "Field, albedo and sign proved for all inputs. For stations of an extended grid the diffuse part depends on other stations (C111_station_false): the sunlit fraction is taken from the selected stations instead of the grid. C111_station_partial: the direct part agrees always, the diffuse part for shaded stations and stations that see the whole sky."
 },
 "C114": {
  "status": "partial",
  "note": "Shapes, creation and placement proved for all field lists. Integer sums are exact exactly if they fit into 32 bits (C114_sum); without this condition the claim is false (C114_sum_false). Output names of coordinates make creation fail. Rounding to float32 is not modelled."
 },
 "C116": {
  "status": "partial",
  "note": "False as stated: the first run uses the unrounded field and later runs the rounded file (C116_repeat_false), and a file left by a run with another DEM or number of sweeps is used without check (C116_stale_false). Proved: what every run uses, given the files left by any sequence of runs, agreement of all repetitions and a bound of half a unit of the third decimal."
 },
 "C119": {
  "status": "partial",
  "note": "False of the code: rain is counted in the snow model (snowpack or runoff) and again in the root zone, and meltwater never reaches the soil (C119_false, C119_melt_false). Proved instead for all runs: the exact balance with the second count of the rain and the water evapotranspiration takes from an empty root zone as separate terms. Soil properties are constant over the run."
 },
 "C121": {
  "status": "partial",
  "note": "False in general: C121_thin_remainder_witness (a run of two days from bare ground) and C121_heat_witness. Proved: exactly when a step gives NaN (C121_undefined_iff, under moderate heat and a surface not below the melting point while melt is demanded), that solid packs stay solid, that complete melt is safe, and that a run of any length fails only at a step in one of the named situations. Exact arithmetic; rounding is not modelled."
 },
 "C122": {
  "status": "partial",
  "note": "Proved: every step of the coupled model is a step of Model/MultiLayerStep with admissible inputs; water balance, contents, albedo for runs of any length from the initial state (C122_run), the exact condition for NaN in a step (C122_undefined_iff) and the possible causes in a run (C122_nan_partial). Conditional on LightRun for Anderson compaction with retention in the pore volume (C122_light: automatic otherwise). C126 bounds the surface temperature under explicit conditions on the weather and the temperature of the surface layer. C127_nan excludes layers that melt by their own heat under explicit conditions on weather and time step; not shown for the default configuration, where C127 is false. Forcing without NaN; canopy, evapotranspiration and glaciers off."
 },
 "C124": {
  "status": "partial",
  "note": "Proved for all domains and forcing series: the run from the initial state is defined and every step satisfies the balances and ranges of StepOK (C124_step, C124_run); with the secant search pixels are independent (C124_independent). Conditional on FairRun (compaction leaves no layer denser than ice, needed only for retention in the pore volume; balance at the melting point of at most 360 W m-2 in frost, needed only for the secant search), which C124_fair derives from bounds on the weather for mass-fraction retention. The claim about the latent heat is false: snow at the melting point takes that of evaporation if the new snow layer is empty (C124_latent_false); C124_latent_partial gives the value. Forcing without NaN; canopy, evapotranspiration and glaciers off."
 },
 "C125": {
  "status": "partial",
  "note": "False of the code: Anderson compaction has no limit and takes every layer of every snowpack beyond any given density (C125_density_false); for every configuration with retention in the pore volume a run of the coupled cryolayer model from its initial state reaches a negative liquid water content and runoff of dry, cold snow (C125_water_false), so the condition on compaction in C124_run cannot be dropped (C125_fair_false). Where compaction does not exceed the density of ice the claim is part of C124 and C33; the empirical method is bounded by its configured densities (C25)."
 },
 "C127": {
  "status": "partial",
  "note": "False in general: the flux is taken at the old temperature of the top layer, so fresh snow overshoots with the default time step (C127_false, C127_melting_witness) and a layer under constant surface temperature swings with growing amplitude (C127_law, C127_swing). Proved: the range under 2*lambda*dt <= thickness*heat capacity of the top layer (C127_range_partial), runs of the coupled multilayer model in which the surface flux keeps the top layer within the range in every step (C127_step, C127_run; C127_soil and C127_thick give sufficient conditions), and that such runs give NaN only where a thin remainder is left (C127_nan, mass-fraction retention). Not shown: a condition on the configuration alone for thin snow."
 },
 "C130": {
  "status": "partial",
  "note": "False of the code as far as the saturation vapour density is concerned: 0.622 is applied twice (C130_density, C130_density_false), which makes the loss too small for every weather (C130_too_small). Proved for the density used: the rate is the unique solution of heat balance and vapour flux (C130_balance), is a loss (C130_loss), monotone (C130_monotone), bounded by the frost point (C130_frost_point), zero for missing input (C130_missing), and enters the canopy books without being cut off (C130_sublimation). Temperatures up to 6000 K; albedo and vapour pressure are inputs (the program takes the ground albedo of the previous step and the pressure above the canopy)."
 },
 "C131": {
  "status": "partial",
  "note": "False of the code: ice content is thickness times 917 for all pixels although thickness was derived with transition.ice (default 900). Proved: the exact change of every pixel not updated (C131_untouched), unbounded growth over the years (C131_growth_false), double counting of liquid water and creation of ice by cutting off (C131_total); conservation with transition density 917, dry ice layers and no cutting off (C131_kept_partial)."
 },
 "C132": {
  "status": "partial",
  "note": "All parts proved for every step of the coupled model (C132_step_partial) except that heat leaving the snow enters the soil, which is false of the code: the conduction of the snow uses the temperature of the last snow slot as lower boundary (C132_base_false)."
 },
 "C133": {
  "status": "partial",
  "note": "False for daily data if the daily time step is not spelled \"D\" (for example \"1D\" or \"24h\"): the data pass through resampling with left labels, and every date gets the precipitation and gusts of the following day (C133_daily_false; with aggregation all variables, see the examples). C133_kept_partial covers all time steps below one day, C133_daily_kept_partial the spelling \"D\"."
 },
 "C134": {
  "status": "partial",
  "note": "False: every pixel without data makes its neighbours lose slope and aspect, and those to the south, west and south-west their normal vector and direct irradiance (C134_spread_false). C134_slope, C134_normal and C134_curvature give the exact cells each quantity depends on; C134_complete_partial the values for pixels with complete surroundings."
 },
 "C135": {
  "status": "partial",
  "note": "False with snow redistribution factors (recorded precipitation is already redistributed and is redistributed again, C135_srf_false) and for forest pixels (recorded temperature, humidity and wind speed are those below the canopy, C135_canopy_false). C135_replay_partial covers every run without the two, whatever the recorded run derives its fields from; C135_fraction: a callback has to assign the cloud fraction besides the cloud factor."
 },
 "C137": {
  "status": "partial",
  "note": "The last part is false: melt of all the ice can leave one unit in the last place (C137_residue_false, for every format with four or more digits). Signs and balance are proved for every rounding function (C137_signs, C137_balance), floating point formats are shown to be such functions (C137_format), and without rounding the step is that of the cryolayer model (C137_exact). Overflow and underflow are left out; C137_balance asks for u <= 1/1000."
 },
 "C138": {
  "status": "partial",
  "note": "False without a condition on thin layers: in double precision and with the default configuration, relayering a snowpack of 2 m above a layer thinner than one unit in the last place writes behind the arrays (C138_bounds_false). With all old layers thicker than the accumulated rounding error (9 u B (n + m)) the loop stays within the arrays, fills every new layer and keeps depth and non-negative contents up to rounding (C138_bounds), for every floating point format (C138_format). Energy, which is negative below the melting point, is not covered by the content bound; underflow and overflow are not modelled."
 },
 "C139": {
  "status": "partial",
  "note": "Slope, aspect and curvature are proved for every pixel. Shadows are proved for every transposed raster, and for mirrored rasters with an odd number of columns (rows) or without a line that passes exactly between two cells; C139_shadows_false shows four cells where mirroring changes the shadow. Normal vectors are false of the code: C139_normal_shift shows that they belong to the neighbouring pixel after mirroring, C139_normal_false that every symmetric crest faces east."
 },
 "C140": {
  "status": "partial",
  "note": "Fields, corrections and resampling below one day are proved for all data. For data aggregated to days the last day is covered if the first record used is at midnight (C140_resampled_partial); otherwise the claim is false of the code: C140_resampled_false shows a station whose last daily mean changes with the end of the simulation. Both runs are assumed to read their data without an exception."
 },
 "C141": {
  "status": "partial",
  "note": "Everything up to acceptance, unchanged arrays, forcing of every model of any sequence of initialisations is proved for all datasets and settings. The last sentence is false of the code: model.meteo is accepted as a dataset and its precipitation is corrected again (C141_reuse_partial, C141_reuse_false)."
 },
 "C142": {
  "status": "partial",
  "note": "Global bounds and lists are proved; for the grid the two criteria are proved to agree except on two edges: stations on the upper edge are within the extent but not read, stations on the lower edge are read but not within the extent (C142_upper_false, C142_lower_false)."
 },
 "C143": {
  "status": "partial",
  "note": "Multilayer and cryolayer snowpack: any pattern of gaps keeps contents and water balance, from station records to the multilayer snowpack. False in three places: snow on a surface above the melting point melts during a gap (C143_melt_false); the cryolayer model sets the surface of snow in frost to the melting point during a gap (C143_cryo_false); a gap in snowfall or temperature makes the snow load of the canopy NaN for the rest of the run (C143_canopy_false, exactly then: C143_canopy_iff). That ordinary weather excludes the situations of C122 is not shown (C143_nan_partial)."
 },
 "C144": {
  "status": "partial",
  "note": "Selection, pairing, fallbacks, range and bounds proved for all grids, accepted extended grids, stations and runs. Availability needs clear-sky values at all stations used (C144_available_partial); it is false for a station within the extent of the grid but outside of the domain (C144_outside_false). Cells of the extended grid at the stations are assumed to have elevation and normal vector."
 },
 "C145": {
  "status": "partial",
  "note": "Exact contents of both files proved for all fields, output dates without repetitions and runs (C145_direct, C145_contents); the prefix and the equality of the files for increasing output dates on the model time axis (all dates from frequencies). False for unsorted output dates (C145_unsorted_false) and for dates between the time steps (C145_between_false)."
 },
 "C146": {
  "status": "partial",
  "note": "The fields of every meteorological variable, the cloud factor, the inputs of both snow models and the fields from csv or netCDF files do not depend on the order of the stations, on stations without data or position, nor on the origin of the coordinates. Needs at most one station in the centre of a pixel (false otherwise, C146_collocated_false) and, for the fractional trend method, a piecewise linear fit that does not depend on the order of its points."
 },
 "C147": {
  "status": "partial",
  "note": "Exact lines of the file for all accepted variables whose layer columns do not clash with other names (C147_file_partial, C147_columns_partial); names that do not end in a digit never clash (C147_names), nor do the default variables (C147_default); in-memory output for all runs (C147_memory). False for other names: C147_overwritten_false, C147_dropped_false."
 },
 "C148": {
  "status": "partial",
  "note": "Proved for moist soil. False of the code for completely dry soil: the surface of bare ground keeps its temperature for ever (C148_dry_false, C148_run_false, C148_witness)."
 },
 "C149": {
  "status": "partial",
  "note": "Proved for wind without terrain correction and no rule on snow below rain (for the rule: monotone); false otherwise (C149_single_false, C149_wind_false, C149_enforce_false) and for the stepwise surface temperature search (C80_other_pixels_false); incoming radiation is an input."
 },
 "C150": {
  "status": "partial",
  "note": "Longwave and direct irradiance as stated; diffuse irradiance under an open sky is the same only for regions with the same mean albedo (C150_open_partial) and otherwise increases with it (C150_albedo_false)."
 },
 "C151": {
  "status": "partial",
  "note": "Lower bound and positivity where precipitation does not cool the surface; upper bound up to an overshoot of second order. Witnesses: overshoot in sunshine from a cold start, heavy cold rain."
 },
 "C152": {
  "status": "partial",
  "note": "Processes are taken one at a time. Proved for temperature-index melt, sublimation and deposition, snowfall, drainage, empirical settling and the albedo; false for continuous refresh at moderate snowfall (C152_refresh_false, always brighter) and for Anderson compaction (C152_anderson_false)."
 },
 "C155": {
  "status": "partial",
  "note": "Proved without deposition; with a moisture flux to the surface a remnant of snow collects frost and bare ground does not, so that the difference can grow (C155_deposition_false)."
 },
 "C156": {
  "status": "partial",
  "note": "Proved for sealed surfaces without restriction and for single crop coefficients unless a time step has rain and a potential evapotranspiration above TAW - RAW; in such time steps and with dual crop coefficients the order can be reversed (witnesses)."
 },
 "C157": {
  "status": "partial",
  "note": "The cells of the region agree for all variables; whole fields agree for float variables without data outside of the region and for aggregates that are not decoded or have float results. False for integer variables with cells outside of the region, in memory and after decoding (C157_integer_false, C157_decoded_false)."
 },
 "C158": {
  "status": "proved",
  "note": "Proved as stated, for columns with the same thermal properties in each time step; with the properties the soil model computes from temperature and moisture freezing can reverse the order (C158_freezing_false)."
 },
 "C159": {
  "status": "partial",
  "note": "Order and bound proved for fixed lapse rates; order proved for relative humidity with dew points above 39 K and for adjustment factors (C159_precip for all elevations). With fitted trends the claim is false (one kelvin at a low station changes a high pixel by nine), with fractional lapse rates the order (C159_fractional_false)."
 },
 "C160": {
  "status": "partial",
  "note": "Everything proved for all rasters, except that inclined planes have an openness of 90 degrees only at pixels farther from the border than the radius (C160_plane_partial); at the border the retained elevations give less (C160_border_false)."
 },
 "C161": {
  "status": "partial",
  "note": "Shadows: proved. Sky view factor: proved if the steepest slope of the raster, at which the horizon search ends, does not get smaller; a lower end of the search makes the sky view factor of cells that are never lit larger (C161_search_false)."
 },
 "C162": {
  "status": "proved",
  "note": "Bound near a station, limit at a station, bound far from all stations, over the model of the interpolation without smoothing (0 in every call of the code)."
 }
}
