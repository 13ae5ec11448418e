{
 "claims": [
  {
   "property": "C01",
   "status": "proved",
   "theorems": [
    "Verif.Run.C01_dates_in_order",
    "Verif.Run.C01_run_complete",
    "Verif.Run.C01_run_rejected",
    "Verif.Run.C01_finished",
    "Verif.Run.C01_singles_equal_run"
   ],
   "note": ""
  },
  {
   "property": "C02",
   "status": "partial",
   "theorems": [
    "Verif.Run.C02_restored_partial",
    "Verif.Run.C02_restored_false",
    "Verif.Run.C02_finished_witness",
    "Verif.Run.C02_run_restored",
    "Verif.Run.C02_resolved",
    "Verif.Run.C02_auto_monotone"
   ],
   "note": "A call whose time step raises leaves the thread count changed (C02_restored_false); C02_restored_partial covers every call that returns."
  },
  {
   "property": "C03",
   "status": "proved",
   "theorems": [
    "Verif.Time.C03_accepted_iff",
    "Verif.Time.C03_rejected",
    "Verif.Time.C03_whole_days",
    "Verif.Time.C03_nondividing_witness"
   ],
   "note": ""
  },
  {
   "property": "C04",
   "status": "proved",
   "theorems": [
    "Verif.Time.C04_strict_flags",
    "Verif.Time.C04_run_flags",
    "Verif.Time.C04_long_step_day_witness",
    "Verif.Time.C04_long_step_month_witness"
   ],
   "note": ""
  },
  {
   "property": "C05",
   "status": "proved",
   "theorems": [
    "Verif.Grid.C05_roi_indices",
    "Verif.Grid.C05_global_mask",
    "Verif.Grid.C05_round_trip",
    "Verif.Grid.C05_stacked"
   ],
   "note": ""
  },
  {
   "property": "C06",
   "status": "partial",
   "theorems": [
    "Verif.Glacier.C06_glacier_ids_lost_witness",
    "Verif.StateVars.C06_reset_partial",
    "Verif.StateVars.C06_bool_false",
    "Verif.StateVars.C06_idempotent",
    "Verif.StateVars.C06_retained"
   ],
   "note": "reset raises for non-retained bool variables (C06_bool_false); none are declared in the code base."
  },
  {
   "property": "C07",
   "status": "partial",
   "theorems": [
    "Verif.StateVars.C07_rejected",
    "Verif.StateVars.C07_categories_partial",
    "Verif.StateVars.C07_raise_witness",
    "Verif.StateVars.C07_overwrite_witness",
    "Verif.StateVars.C07_parse"
   ],
   "note": "The names 'categories' and '_categories' break the claim (C07_raise_witness, C07_overwrite_witness)."
  },
  {
   "property": "C08",
   "status": "proved",
   "theorems": [
    "Verif.Grid.C08_interleaving",
    "Verif.Grid.C08_schedule_independent",
    "Verif.Grid.C08_two_schedules",
    "Verif.Grid.C08_equals_sequential",
    "Verif.Grid.C08_roi_nodup"
   ],
   "note": ""
  },
  {
   "property": "C09",
   "status": "proved",
   "theorems": [
    "Verif.Precip.C09_rejected",
    "Verif.Precip.C09_share",
    "Verif.Precip.C09_range",
    "Verif.Precip.C09_antitone",
    "Verif.Precip.C09_threshold"
   ],
   "note": ""
  },
  {
   "property": "C10",
   "status": "proved",
   "theorems": [
    "Verif.Precip.C10_balance",
    "Verif.Precip.C10_redistribution",
    "Verif.Precip.C10_missing_temperature",
    "Verif.Precip.C10_snowfall"
   ],
   "note": ""
  },
  {
   "property": "C11",
   "status": "partial",
   "theorems": [
    "Verif.Precip.C11_no_snow_below_rain_partial",
    "Verif.Precip.C11_missing_elevation_false",
    "Verif.Precip.C11_missing_summit_witness"
   ],
   "note": "A pixel of the region of interest without elevation that counts as pure rain switches the rule off in the whole domain (C11_missing_elevation_false); such pixels arise when the region is extended to stations outside the elevation model (C103_roi_elevation_false). C11_no_snow_below_rain_partial covers all domains in which the pure-rain pixels have an elevation."
  },
  {
   "property": "C12",
   "status": "proved",
   "theorems": [
    "Verif.Idw.C12_lengths",
    "Verif.Idw.C12_missing_iff",
    "Verif.Idw.C12_weighted_mean",
    "Verif.Idw.C12_bounds",
    "Verif.Idw.C12_constant",
    "Verif.Idw.C12_exact",
    "Verif.Idw.C12_collocated_first",
    "Verif.Idw.C12_order_and_missing",
    "Verif.Idw.C12_affine"
   ],
   "note": ""
  },
  {
   "property": "C13",
   "status": "proved",
   "theorems": [
    "Verif.MultiLayer.C13_melt_conserves_mass",
    "Verif.MultiLayer.C13_melt_per_layer",
    "Verif.MultiLayer.C13_melt_top_down",
    "Verif.MultiLayer.C13_melt_cold_pack"
   ],
   "note": ""
  },
  {
   "property": "C14",
   "status": "proved",
   "theorems": [
    "Verif.MultiLayer.C14_amount",
    "Verif.MultiLayer.C14_sublimation_kernel",
    "Verif.MultiLayer.C14_sublimation_undefined_iff",
    "Verif.MultiLayer.C14_sublimation_defined",
    "Verif.MultiLayer.C14_sublimation_step",
    "Verif.MultiLayer.C14_undefined_witness"
   ],
   "note": ""
  },
  {
   "property": "C15",
   "status": "proved",
   "theorems": [
    "Verif.MultiLayer.C15_runoff_water_balance",
    "Verif.MultiLayer.C15_runoff_per_layer",
    "Verif.MultiLayer.C15_runoff_bounds"
   ],
   "note": ""
  },
  {
   "property": "C16",
   "status": "proved",
   "theorems": [
    "Verif.MultiLayer.C16_relayering_profile",
    "Verif.MultiLayer.C16_relayering_conserves",
    "Verif.MultiLayer.C16_relayering_defined",
    "Verif.MultiLayer.C16_thin_snow_deleted",
    "Verif.MultiLayer.C16_relayering_undefined_iff",
    "Verif.MultiLayer.C16_thin_undefined_iff",
    "Verif.MultiLayer.C16_undefined_witness",
    "Verif.MultiLayer.C16_tiny_min_thickness_witness"
   ],
   "note": ""
  },
  {
   "property": "C17",
   "status": "proved",
   "theorems": [
    "Verif.MultiLayer.C17_layer_geometry"
   ],
   "note": ""
  },
  {
   "property": "C18",
   "status": "proved",
   "theorems": [
    "Verif.MultiLayer.C18_step_water_balance",
    "Verif.MultiLayer.C18_run_water_balance"
   ],
   "note": ""
  },
  {
   "property": "C19",
   "status": "proved",
   "theorems": [
    "Verif.MultiLayer.C19_add_snow"
   ],
   "note": ""
  },
  {
   "property": "C20",
   "status": "proved",
   "theorems": [
    "Verif.Tridiag.C20_solution_unique",
    "Verif.Tridiag.C20_dominant_solved",
    "Verif.Tridiag.C20_array_version",
    "Verif.Tridiag.C20_zero_pivot_witness"
   ],
   "note": ""
  },
  {
   "property": "C21",
   "status": "proved",
   "theorems": [
    "Verif.Heat.C21_layer_energy_balance",
    "Verif.Heat.C21_column_energy_balance",
    "Verif.Heat.C21_array",
    "Verif.Heat.C21_array_balance"
   ],
   "note": ""
  },
  {
   "property": "C22",
   "status": "proved",
   "theorems": [
    "Verif.Heat.C22_maximum_principle",
    "Verif.Heat.C22_isothermal"
   ],
   "note": ""
  },
  {
   "property": "C23",
   "status": "partial",
   "theorems": [
    "Verif.Heat.C23_bottom_boundary_partial",
    "Verif.Heat.C23_coupling_false",
    "Verif.Heat.C23_spurious_warming_witness"
   ],
   "note": "False of the code (multilayermodel.py:509 passes the last snow slot). Negation proved in C23_coupling_false; C23_bottom_boundary_partial states what holds."
  },
  {
   "property": "C24",
   "status": "proved",
   "theorems": [
    "Verif.MultiLayer.C24_run_generic",
    "Verif.MultiLayer.C24_run_in_range",
    "Verif.Snow.C24_timescale",
    "Verif.Snow.C24_partial_refresh",
    "Verif.Cryo.C24_cryo_run",
    "Verif.Snow.C24_albedo_in_range",
    "Verif.Snow.C24_ageing_lowers",
    "Verif.Snow.C24_ageing_semigroup",
    "Verif.Snow.C24_full_refresh",
    "Verif.Snow.C24_zero_refresh_witness"
   ],
   "note": ""
  },
  {
   "property": "C25",
   "status": "proved",
   "theorems": [
    "Verif.Snow.C25_anderson_rate",
    "Verif.Snow.C25_empirical_rate",
    "Verif.Snow.C25_anderson",
    "Verif.Snow.C25_empirical",
    "Verif.Snow.C25_massless_witness"
   ],
   "note": ""
  },
  {
   "property": "C26",
   "status": "proved",
   "theorems": [
    "Verif.Snow.C26_fresh_snow_density",
    "Verif.Snow.C26_retention_capacity",
    "Verif.Snow.C26_negative_capacity"
   ],
   "note": ""
  },
  {
   "property": "C27",
   "status": "proved",
   "theorems": [
    "Verif.Snow.C27_additive",
    "Verif.Snow.C27_swe_depth",
    "Verif.Snow.C27_area_fraction"
   ],
   "note": ""
  },
  {
   "property": "C28",
   "status": "proved",
   "theorems": [
    "Verif.Cryo.C28_runoff_retention",
    "Verif.Cryo.C28_add_snow_albedo",
    "Verif.Cryo.C28_melt",
    "Verif.Cryo.C28_add_snow",
    "Verif.Cryo.C28_sublimation",
    "Verif.Cryo.C28_runoff"
   ],
   "note": ""
  },
  {
   "property": "C29",
   "status": "proved",
   "theorems": [
    "Verif.Cryo.C29_transition",
    "Verif.Cryo.C29_update_layers",
    "Verif.Cryo.C29_inconsistent_source_witness"
   ],
   "note": ""
  },
  {
   "property": "C30",
   "status": "proved",
   "theorems": [
    "Verif.Cryo.C30_melt_energy",
    "Verif.Cryo.C30_no_melt"
   ],
   "note": ""
  },
  {
   "property": "C31",
   "status": "proved",
   "theorems": [
    "Verif.Cryo.C31_cold_used",
    "Verif.Cryo.C31_refreezing",
    "Verif.Cryo.C31_refreezing_bounded",
    "Verif.Cryo.C31_release_witness"
   ],
   "note": ""
  },
  {
   "property": "C32",
   "status": "proved",
   "theorems": [
    "Verif.Cryo.C32_degree_day",
    "Verif.Cryo.C32_proportional",
    "Verif.Cryo.C32_bounds",
    "Verif.Cryo.C32_monotone"
   ],
   "note": ""
  },
  {
   "property": "C33",
   "status": "proved",
   "theorems": [
    "Verif.Cryo.C33_step",
    "Verif.Cryo.C33_run"
   ],
   "note": ""
  },
  {
   "property": "C34",
   "status": "proved",
   "theorems": [
    "Verif.Cryo.C34_once_per_visit",
    "Verif.Cryo.C34_exactly_once",
    "Verif.Cryo.C34_no_transition_at_start"
   ],
   "note": ""
  },
  {
   "property": "C35",
   "status": "proved",
   "theorems": [
    "Verif.Canopy.C35_amounts",
    "Verif.Canopy.C35_step",
    "Verif.Canopy.C35_run",
    "Verif.Canopy.C35_capacity_drop_false",
    "Verif.Canopy.C35_zero_capacity_witness",
    "Verif.Canopy.C35_no_melt_when_cold"
   ],
   "note": ""
  },
  {
   "property": "C36",
   "status": "proved",
   "theorems": [
    "Verif.Canopy.C36_mean_of_last_day",
    "Verif.Canopy.C36_buffer_size"
   ],
   "note": ""
  },
  {
   "property": "C37",
   "status": "proved",
   "theorems": [
    "Verif.Canopy.C37_stacked",
    "Verif.Canopy.C37_canopy_fraction",
    "Verif.Canopy.C37_bounds",
    "Verif.Canopy.C37_mixing",
    "Verif.Canopy.C37_gap_false"
   ],
   "note": ""
  },
  {
   "property": "C38",
   "status": "proved",
   "theorems": [
    "Verif.Evapo.C38_root_zone",
    "Verif.Evapo.C38_stress",
    "Verif.Evapo.C38_single_run",
    "Verif.Evapo.C38_dual_run",
    "Verif.Evapo.C38_rain_on_snow_witness"
   ],
   "note": ""
  },
  {
   "property": "C39",
   "status": "partial",
   "theorems": [
    "Verif.Evapo.C39_reduction",
    "Verif.Evapo.C39_total_coefficient",
    "Verif.Evapo.C39_max_coefficient",
    "Verif.Evapo.C39_exposed",
    "Verif.Evapo.C39_refill_false",
    "Verif.Evapo.C39_rain_after_dry_partial",
    "Verif.Evapo.C39_full_cover_witness"
   ],
   "note": "Depletion and reduction coefficient bounds proved; the refill claim is false of the code (C39_refill_false), C39_rain_after_dry_partial states what happens instead."
  },
  {
   "property": "C40",
   "status": "proved",
   "theorems": [
    "Verif.Evapo.C40_step",
    "Verif.Evapo.C40_run"
   ],
   "note": ""
  },
  {
   "property": "C41",
   "status": "proved",
   "theorems": [
    "Verif.CropCoeff.C41_curve",
    "Verif.CropCoeff.C41_rejected",
    "Verif.CropCoeff.C41_range",
    "Verif.CropCoeff.C41_hits",
    "Verif.CropCoeff.C41_height",
    "Verif.CropCoeff.C41_height_curve",
    "Verif.CropCoeff.C41_height_grows",
    "Verif.CropCoeff.C41_height_grows_witness",
    "Verif.CropCoeff.C41_dates",
    "Verif.CropCoeff.C41_year_end_witness"
   ],
   "note": ""
  },
  {
   "property": "C42",
   "status": "proved",
   "theorems": [
    "Verif.CropCoeff.C42_lai_range",
    "Verif.CropCoeff.C42_lai_season",
    "Verif.CropCoeff.C42_dates",
    "Verif.CropCoeff.C42_subcycles_false"
   ],
   "note": "Includes the failure for sub-cycles (C42_subcycles_false)."
  },
  {
   "property": "C43",
   "status": "proved",
   "theorems": [
    "Verif.Glacier.C43_delta_h",
    "Verif.Glacier.C43_delta_h_antitone",
    "Verif.Glacier.C43_total",
    "Verif.Glacier.C43_equal_elevations_false",
    "Verif.Glacier.C43_unrestricted_order",
    "Verif.Glacier.C43_restriction_false",
    "Verif.Glacier.C43_geometry",
    "Verif.Glacier.C43_others"
   ],
   "note": ""
  },
  {
   "property": "C44",
   "status": "proved",
   "theorems": [
    "Verif.PointOutput.C44_complete",
    "Verif.PointOutput.C44_append_false"
   ],
   "note": ""
  },
  {
   "property": "C45",
   "status": "proved",
   "theorems": [
    "Verif.Gridded.C45_aggregated",
    "Verif.Gridded.C45_blocks",
    "Verif.Gridded.C45_instantaneous"
   ],
   "note": ""
  },
  {
   "property": "C46",
   "status": "proved",
   "theorems": [
    "Verif.Gridded.C46_rejects",
    "Verif.Gridded.C46_aggregated",
    "Verif.Gridded.C46_instantaneous",
    "Verif.Gridded.C46_output",
    "Verif.Gridded.C46_labels"
   ],
   "note": ""
  },
  {
   "property": "C47",
   "status": "proved",
   "theorems": [
    "Verif.RoiPixel.C47_round_trip",
    "Verif.RoiPixel.C47_pixels",
    "Verif.RoiPixel.C47_axes",
    "Verif.RoiPixel.C47_coordinates"
   ],
   "note": ""
  },
  {
   "property": "C48",
   "status": "proved",
   "theorems": [
    "Verif.Stations.C48_error",
    "Verif.Stations.C48_selected"
   ],
   "note": ""
  },
  {
   "property": "C49",
   "status": "proved",
   "theorems": [
    "Verif.Stations.C49_filters",
    "Verif.Stations.C49_order",
    "Verif.Stations.C49_idempotent"
   ],
   "note": ""
  },
  {
   "property": "C50",
   "status": "proved",
   "theorems": [
    "Verif.Resample.C50_sum_strict",
    "Verif.Resample.C50_interval",
    "Verif.Resample.C50_daily",
    "Verif.Resample.C50_total",
    "Verif.Resample.C50_complete_bins",
    "Verif.Resample.C50_same_step",
    "Verif.Resample.C50_first_bin_witness",
    "Verif.Resample.C50_end_witness",
    "Verif.Resample.C50_daily_misaligned_witness"
   ],
   "note": ""
  },
  {
   "property": "C51",
   "status": "proved",
   "theorems": [
    "Verif.Stations.C51_extent",
    "Verif.Stations.C51_roi",
    "Verif.Stations.C51_extend",
    "Verif.Stations.C51_bounds_disagree",
    "Verif.Stations.C51_roi_elevation",
    "Verif.Stations.C51_edges_witness",
    "Verif.Stations.C51_extended_nan_witness"
   ],
   "note": ""
  },
  {
   "property": "C52",
   "status": "proved",
   "theorems": [
    "Verif.Config.C52_merge"
   ],
   "note": ""
  },
  {
   "property": "C53",
   "status": "proved",
   "theorems": [
    "Verif.Config.C53_accepts",
    "Verif.Config.C53_idempotent",
    "Verif.Config.C53_changes",
    "Verif.Config.C53_coercions",
    "Verif.Config.C53_cloudiness"
   ],
   "note": ""
  },
  {
   "property": "C54",
   "status": "proved",
   "theorems": [
    "Verif.Config.C54_configure",
    "Verif.Config.C54_level",
    "Verif.Config.C54_idempotent",
    "Verif.Config.C54_at_most_one",
    "Verif.Config.C54_once"
   ],
   "note": ""
  },
  {
   "property": "C55",
   "status": "proved",
   "theorems": [
    "Verif.Config.C55_normalize",
    "Verif.Config.C55_constant_false"
   ],
   "note": ""
  },
  {
   "property": "C56",
   "status": "proved",
   "theorems": [
    "Verif.MeteoInterp.C56_physical",
    "Verif.MeteoInterp.C56_range",
    "Verif.MeteoInterp.C56_no_stations"
   ],
   "note": ""
  },
  {
   "property": "C57",
   "status": "partial",
   "theorems": [
    "Verif.MeteoInterp.C57_single_station",
    "Verif.MeteoInterp.C57_fractional_scale",
    "Verif.MeteoInterp.C57_fit",
    "Verif.MeteoInterp.C57_fit_flat",
    "Verif.MeteoInterp.C57_station",
    "Verif.MeteoInterp.C57_station_humidity",
    "Verif.MeteoInterp.C57_shift",
    "Verif.MeteoInterp.C57_level",
    "Verif.MeteoInterp.C57_regression_flat_false"
   ],
   "note": "Proved, except that regression over stations at a single elevation yields a spurious gradient (C57_regression_flat_false) and shift invariance needs two different elevations for regression."
  },
  {
   "property": "C58",
   "status": "partial",
   "theorems": [
    "Verif.MeteoInterp.C58_false",
    "Verif.MeteoInterp.C58_partial"
   ],
   "note": "False of the code: with extrapolation disabled humidity is 100 % everywhere (C58_false)."
  },
  {
   "property": "C59",
   "status": "proved",
   "theorems": [
    "Verif.MeteoInterp.C59_value",
    "Verif.MeteoInterp.C59_reciprocal",
    "Verif.MeteoInterp.C59_positive",
    "Verif.MeteoInterp.C59_increasing",
    "Verif.MeteoInterp.C59_outside",
    "Verif.MeteoInterp.C59_precip"
   ],
   "note": ""
  },
  {
   "property": "C60",
   "status": "proved",
   "theorems": [
    "Verif.Atmosphere.C60_svp_pos",
    "Verif.Atmosphere.C60_svp_strictMono",
    "Verif.Atmosphere.C60_dew_point",
    "Verif.Atmosphere.C60_dew_point_dry",
    "Verif.Atmosphere.C60_absolute",
    "Verif.Atmosphere.C60_specific",
    "Verif.Atmosphere.C60_reference"
   ],
   "note": ""
  },
  {
   "property": "C61",
   "status": "proved",
   "theorems": [
    "Verif.Atmosphere.C61_defined",
    "Verif.Atmosphere.C61_altitude_pressure",
    "Verif.Atmosphere.C61_pressure_altitude",
    "Verif.Atmosphere.C61_antitone"
   ],
   "note": ""
  },
  {
   "property": "C62",
   "status": "proved",
   "theorems": [
    "Verif.Atmosphere.C62_range",
    "Verif.Atmosphere.C62_round_trip",
    "Verif.Atmosphere.C62_calm_false",
    "Verif.Atmosphere.C62_length",
    "Verif.Atmosphere.C62_convention"
   ],
   "note": ""
  },
  {
   "property": "C63",
   "status": "proved",
   "theorems": [
    "Verif.Atmosphere.C63_factor",
    "Verif.Atmosphere.C63_fraction",
    "Verif.Atmosphere.C63_fraction_antitone",
    "Verif.Atmosphere.C63_round_trip",
    "Verif.Atmosphere.C63_round_trip'",
    "Verif.Atmosphere.C63_humidity",
    "Verif.Atmosphere.C63_emissivity",
    "Verif.Atmosphere.C63_humidity_monotone",
    "Verif.Atmosphere.C63_humidity_saturated"
   ],
   "note": ""
  },
  {
   "property": "C64",
   "status": "partial",
   "theorems": [
    "Verif.PrecipCorr.C64_constant",
    "Verif.PrecipCorr.C64_sequence",
    "Verif.PrecipCorr.C64_missing",
    "Verif.PrecipCorr.C64_dry",
    "Verif.PrecipCorr.C64_gauges_false",
    "Verif.PrecipCorr.C64_koch_value",
    "Verif.PrecipCorr.C64_koch",
    "Verif.PrecipCorr.C64_koch_partial",
    "Verif.PrecipCorr.C64_koch_false",
    "Verif.PrecipCorr.C64_hellmann_snow",
    "Verif.PrecipCorr.C64_hellmann_mixed",
    "Verif.PrecipCorr.C64_hellmann_mixed_false"
   ],
   "note": "All wmo gauges except hellmann raise (C64_gauges_false); kochendorfer and hellmann can reduce precipitation (C64_koch_false, C64_hellmann_mixed_false)."
  },
  {
   "property": "C65",
   "status": "proved",
   "theorems": [
    "Verif.MeteoInterp.C65_exposure",
    "Verif.MeteoInterp.C65_liston",
    "Verif.MeteoInterp.C65_uniform_false"
   ],
   "note": ""
  },
  {
   "property": "C66",
   "status": "proved",
   "theorems": [
    "Verif.Atmosphere.C66_last_step",
    "Verif.Atmosphere.C66_unique",
    "Verif.Atmosphere.C66_saturated",
    "Verif.Atmosphere.C66_bounds",
    "Verif.Atmosphere.C66_tolerance"
   ],
   "note": ""
  },
  {
   "property": "C67",
   "status": "partial",
   "theorems": [
    "Verif.Terrain.C67_plane_gradient",
    "Verif.Terrain.C67_range",
    "Verif.Terrain.C67_plane_interior_partial",
    "Verif.Terrain.C67_border_false",
    "Verif.Terrain.C67_narrow_false",
    "Verif.Terrain.C67_offset"
   ],
   "note": "At border cells the gradient component across the border is halved, so the slope is too small (C67_border_false); C67_plane_interior_partial covers every interior cell. The remaining clauses are proved for all cells."
  },
  {
   "property": "C68",
   "status": "proved",
   "theorems": [
    "Verif.Terrain.C68_unit_upward",
    "Verif.Terrain.C68_plane",
    "Verif.Terrain.C68_agrees",
    "Verif.Terrain.C68_incidence",
    "Verif.Terrain.C68_slope_incidence"
   ],
   "note": ""
  },
  {
   "property": "C69",
   "status": "proved",
   "theorems": [
    "Verif.Terrain.C69_plane",
    "Verif.Terrain.C69_sign_offset",
    "Verif.Terrain.C69_summit"
   ],
   "note": ""
  },
  {
   "property": "C70",
   "status": "partial",
   "theorems": [
    "Verif.Terrain.C70_atomic_partial",
    "Verif.Terrain.C70_any_schedule",
    "Verif.Terrain.C70_race_false",
    "Verif.Terrain.C70_sight"
   ],
   "note": "The numba prange loop updates the minimum without synchronisation: an interleaving loses an update (C70_race_false). C70_atomic_partial and C70_any_schedule hold when iterations are atomic."
  },
  {
   "property": "C71",
   "status": "proved",
   "theorems": [
    "Verif.Sun.C71_unit",
    "Verif.Sun.C71_declination",
    "Verif.Sun.C71_daily_path",
    "Verif.Sun.C71_horizon",
    "Verif.Sun.C71_hour_angle",
    "Verif.Sun.C71_year",
    "Verif.Sun.C71_equation_of_time",
    "Verif.Sun.C71_sun_at"
   ],
   "note": ""
  },
  {
   "property": "C72",
   "status": "proved",
   "theorems": [
    "Verif.Shadows.C72_terminates",
    "Verif.Shadows.C72_shaded_iff",
    "Verif.Shadows.C72_schedule",
    "Verif.Shadows.C72_line",
    "Verif.Shadows.C72_flat",
    "Verif.Shadows.C72_offset",
    "Verif.Shadows.C72_lower_sun",
    "Verif.Shadows.C72_more_sweeps",
    "Verif.Shadows.C72_missing_false",
    "Verif.Shadows.C72_starts"
   ],
   "note": "Includes the failure for missing elevations, which light later cells of a sweep (C72_missing_false)."
  },
  {
   "property": "C73",
   "status": "partial",
   "theorems": [
    "Verif.Shadows.C73_lowest",
    "Verif.Shadows.C73_horizon",
    "Verif.Shadows.C73_range",
    "Verif.Shadows.C73_flat_partial",
    "Verif.Shadows.C73_flat_false"
   ],
   "note": "The range is proved; flat terrain of more than one cell gets cos(1 deg)^2 instead of 1 (C73_flat_false). C73_flat_partial: flat terrain is lit from every examined elevation."
  },
  {
   "property": "C74",
   "status": "partial",
   "theorems": [
    "Verif.ClearSky.C74_direct",
    "Verif.ClearSky.C74_air_mass_partial",
    "Verif.ClearSky.C74_air_mass_false",
    "Verif.ClearSky.C74_diffuse",
    "Verif.ClearSky.C74_transmittances"
   ],
   "note": "The air mass limit is ineffective for low sun (C74_air_mass_false); C74_air_mass_partial states what holds. All other clauses are proved."
  },
  {
   "property": "C75",
   "status": "partial",
   "theorems": [
    "Verif.Irradiance.C75_method",
    "Verif.Irradiance.C75_no_fallback",
    "Verif.Irradiance.C75_range",
    "Verif.Irradiance.C75_kept",
    "Verif.Irradiance.C75_shortwave_bounds",
    "Verif.Irradiance.C75_available_partial",
    "Verif.Irradiance.C75_outside_domain_false",
    "Verif.Irradiance.C75_prescribed",
    "Verif.Irradiance.C75_station"
   ],
   "note": "Availability is false if the only radiation station is within the grid but outside the domain (C75_outside_domain_false); C75_available_partial states the proviso. The range is an invariant of every run."
  },
  {
   "property": "C76",
   "status": "proved",
   "theorems": [
    "Verif.Irradiance.C76_temperature",
    "Verif.Irradiance.C76_clouds",
    "Verif.Irradiance.C76_black_body",
    "Verif.Irradiance.C76_emission"
   ],
   "note": ""
  },
  {
   "property": "C77",
   "status": "proved",
   "theorems": [
    "Verif.Surface.C77_albedo",
    "Verif.Surface.C77_roughness",
    "Verif.Surface.C77_conductance",
    "Verif.Surface.C77_layer_temp",
    "Verif.Surface.C77_layer_cond",
    "Verif.Surface.C77_continuous"
   ],
   "note": ""
  },
  {
   "property": "C78",
   "status": "proved",
   "theorems": [
    "Verif.Surface.C78_range",
    "Verif.Surface.C78_strict",
    "Verif.Surface.C78_monotone",
    "Verif.Surface.C78_calm",
    "Verif.Surface.C78_missing",
    "Verif.Surface.C78_exchange"
   ],
   "note": ""
  },
  {
   "property": "C79",
   "status": "partial",
   "theorems": [
    "Verif.Surface.C79_warming",
    "Verif.Surface.C79_availability",
    "Verif.Surface.C79_melt_nonneg",
    "Verif.Surface.C79_ice_caps_temperature",
    "Verif.Surface.C79_full_melt",
    "Verif.Surface.C79_partial_melt",
    "Verif.Surface.C79_new_fluxes",
    "Verif.Surface.C79_closure_partial",
    "Verif.Surface.C79_sensible_false",
    "Verif.Surface.C79_moisture_false",
    "Verif.Surface.C79_latent",
    "Verif.Surface.C79_melt_bound",
    "Verif.Surface.C79_melt_exceeds_ice_witness"
   ],
   "note": "Warming, melt and partial melt proved. False of the code: the reported sensible heat flux is corrected with the wrong sign (C79_sensible_false), the moisture flux belongs to the old temperature (C79_moisture_false), and melt can exceed the ice slightly (C79_melt_exceeds_ice_witness, bounded in C79_melt_bound). C79_closure_partial is the linearised balance."
  },
  {
   "property": "C80",
   "status": "partial",
   "theorems": [
    "Verif.SurfaceTemp.C80_secant_terminates_humidity",
    "Verif.SurfaceTemp.C80_humidity_convex_false",
    "Verif.SurfaceTemp.C80_stepwise",
    "Verif.SurfaceTemp.C80_stepwise_zero",
    "Verif.SurfaceTemp.C80_stepwise_warm",
    "Verif.SurfaceTemp.C80_independent_partial",
    "Verif.SurfaceTemp.C80_other_pixels_false",
    "Verif.SurfaceTemp.C80_secant_cap",
    "Verif.SurfaceTemp.C80_secant_stop",
    "Verif.SurfaceTemp.C80_secant_independent",
    "Verif.SurfaceTemp.C80_secant_error",
    "Verif.SurfaceTemp.C80_secant_terminates",
    "Verif.SurfaceTemp.C80_balance_shape",
    "Verif.SurfaceTemp.C80_secant_humidity_partial",
    "Verif.SurfaceTemp.C80_secant_humidity_false"
   ],
   "note": "Both searches proved, including termination of the secant loop, also for the saturation humidity formula of the program with its jump at the melting point (C80_secant_terminates_humidity). False of the code: the stepwise search depends on the coldest pixel of the domain (C80_other_pixels_false), and after the secant search the humidity may belong to a temperature above the melting point (C80_secant_humidity_false)."
  },
  {
   "property": "C81",
   "status": "proved",
   "theorems": [
    "Verif.Soil.C81_water",
    "Verif.Soil.C81_threshold",
    "Verif.Soil.C81_equilibrium",
    "Verif.Soil.C81_unfrozen_monotone",
    "Verif.Soil.C81_derivative",
    "Verif.Soil.C81_heat_capacity",
    "Verif.Soil.C81_conductivity",
    "Verif.Soil.C81_init",
    "Verif.Soil.C81_init_values"
   ],
   "note": ""
  },
  {
   "property": "C82",
   "status": "partial",
   "theorems": [
    "Verif.Soil.C82_flux",
    "Verif.Soil.C82_balance_partial",
    "Verif.Soil.C82_field",
    "Verif.Soil.C82_bottom",
    "Verif.Soil.C82_extrema",
    "Verif.Soil.C82_leak_false"
   ],
   "note": "Flux direction and extrema proved; heat passes through the bottom whenever the lowest layer changes temperature (C82_bottom, C82_leak_false), C82_balance_partial is the exact balance."
  },
  {
   "property": "C83",
   "status": "partial",
   "theorems": [
    "Verif.Atmosphere.C83_density",
    "Verif.Atmosphere.C83_library_false",
    "Verif.Atmosphere.C83_library_witness",
    "Verif.Atmosphere.C83_latent_heat",
    "Verif.Atmosphere.C83_psychrometric",
    "Verif.Atmosphere.C83_psychrometric_balance",
    "Verif.Atmosphere.C83_moist_air"
   ],
   "note": "Proved for the formula used in the model; the library function dry_air_density multiplies instead of dividing (C83_library_false)."
  },
  {
   "property": "C84",
   "status": "partial",
   "theorems": [
    "Verif.Soil.C84_unfrozen_partial",
    "Verif.Soil.C84_freezing_false"
   ],
   "note": "False of the code in freezing soil: the temperature enters in kelvin (C84_freezing_false); holds above the freezing threshold."
  },
  {
   "property": "C85",
   "status": "partial",
   "theorems": [
    "Verif.Forcing.C85_variables",
    "Verif.Forcing.C85_units_partial",
    "Verif.Forcing.C85_no_units",
    "Verif.Forcing.C85_order",
    "Verif.Forcing.C85_rates",
    "Verif.Forcing.C85_few_dates",
    "Verif.Forcing.C85_irregular",
    "Verif.Forcing.C85_cloud_false",
    "Verif.Forcing.C85_cloud_units_false",
    "Verif.Forcing.C85_fraction_kept"
   ],
   "note": "Proved for variables, order, rates and units other than cloud cover; the cloud cover check counts variables instead of looking at values (C85_cloud_false, C85_cloud_units_false)."
  },
  {
   "property": "C86",
   "status": "partial",
   "theorems": [
    "Verif.Forcing.C86_times",
    "Verif.Forcing.C86_sorted",
    "Verif.Forcing.C86_values",
    "Verif.Forcing.C86_valid",
    "Verif.Forcing.C86_final_values",
    "Verif.Forcing.C86_reindexed",
    "Verif.Forcing.C86_lookup_partial",
    "Verif.Forcing.C86_gap_false"
   ],
   "note": "Times, order, values and reindexing proved; a gap between the files leads to a missing date and a KeyError in the run (C86_gap_false)."
  },
  {
   "property": "C87",
   "status": "proved",
   "theorems": [
    "Verif.GridGeom.C87_accepts",
    "Verif.GridGeom.C87_same_cell",
    "Verif.GridGeom.C87_injective"
   ],
   "note": ""
  },
  {
   "property": "C88",
   "status": "proved",
   "theorems": [
    "Verif.GridGeom.C88_metadata",
    "Verif.GridGeom.C88_grid",
    "Verif.GridGeom.C88_centres",
    "Verif.GridGeom.C88_roi",
    "Verif.GridGeom.C88_roi_complete",
    "Verif.GridGeom.C88_raster",
    "Verif.GridGeom.C88_roi_nodata",
    "Verif.GridGeom.C88_lookup"
   ],
   "note": ""
  },
  {
   "property": "C89",
   "status": "partial",
   "theorems": [
    "Verif.WriteDates.C89_months",
    "Verif.WriteDates.C89_years",
    "Verif.WriteDates.C89_aggregated",
    "Verif.WriteDates.C89_incomplete",
    "Verif.WriteDates.C89_end",
    "Verif.WriteDates.C89_begin",
    "Verif.WriteDates.C89_output",
    "Verif.WriteDates.C89_unaligned_false",
    "Verif.WriteDates.C89_end_false",
    "Verif.WriteDates.C89_half_month_witness"
   ],
   "note": "Proved for runs starting at midnight or, for aggregates, at a multiple of the time step unit and reaching the end of the first period; false otherwise (C89_unaligned_false, C89_end_false, C89_half_month_witness)."
  },
  {
   "property": "C90",
   "status": "partial",
   "theorems": [
    "Verif.GlacierYear.C90_when",
    "Verif.GlacierYear.C90_balance_partial",
    "Verif.GlacierYear.C90_first_unique",
    "Verif.GlacierYear.C90_balance_false"
   ],
   "note": "Update dates proved; the mass balance omits the first time step of the mass balance year (C90_balance_false), C90_balance_partial is the exact value."
  },
  {
   "property": "C91",
   "status": "partial",
   "theorems": [
    "Verif.Piecewise.C91_segments",
    "Verif.Piecewise.C91_improvement",
    "Verif.Piecewise.C91_stop",
    "Verif.Piecewise.C91_found",
    "Verif.Piecewise.C91_method_partial",
    "Verif.Piecewise.C91_segments_false"
   ],
   "note": "Proved for the regression; with fixed or fractional methods and more than one segment the profile raises (C91_segments_false)."
  },
  {
   "property": "C92",
   "status": "partial",
   "theorems": [
    "Verif.Freq.C92_days",
    "Verif.Freq.C92_signed_days",
    "Verif.Freq.C92_day",
    "Verif.Freq.C92_hours",
    "Verif.Freq.C92_ends",
    "Verif.Freq.C92_direct",
    "Verif.Freq.C92_unchanged",
    "Verif.Freq.C92_anchored_false",
    "Verif.Freq.C92_anchored_witness",
    "Verif.Freq.C92_anchored_partial"
   ],
   "note": "Proved for plain frequencies; anchored ones such as W-WED or A-MAY are misread (C92_anchored_false, C92_anchored_witness)."
  },
  {
   "property": "C93",
   "status": "partial",
   "theorems": [
    "Verif.OutputDef.C93_points",
    "Verif.OutputDef.C93_unique",
    "Verif.OutputDef.C93_cells",
    "Verif.OutputDef.C93_names",
    "Verif.OutputDef.C93_variable_names",
    "Verif.OutputDef.C93_layers",
    "Verif.OutputDef.C93_dataset_partial",
    "Verif.OutputDef.C93_reserved_false",
    "Verif.OutputDef.C93_check_witness"
   ],
   "note": "Points, names and layers proved; names of coordinates are accepted as output names and fail later (C93_reserved_false), C93_dataset_partial covers all other names."
  },
  {
   "property": "C94",
   "status": "partial",
   "theorems": [
    "Verif.OutputDef.C94_fields",
    "Verif.OutputDef.C94_shared",
    "Verif.OutputDef.C94_bounds_partial",
    "Verif.OutputDef.C94_instantaneous_partial",
    "Verif.OutputDef.C94_unsorted_false",
    "Verif.OutputDef.C94_between_false"
   ],
   "note": "Shared coordinates proved for all fields; indices and bounds for increasing write dates that are model dates (all dates from frequencies), false for other configured dates (C94_unsorted_false, C94_between_false)."
  },
  {
   "property": "C95",
   "status": "partial",
   "theorems": [
    "Verif.OutputDef.C95_files_partial",
    "Verif.OutputDef.C95_run_partial",
    "Verif.OutputDef.C95_layer_false"
   ],
   "note": "False if an output name ends like a layer or date suffix (C95_layer_false); proved for all other names."
  },
  {
   "property": "C96",
   "status": "proved",
   "theorems": [
    "Verif.WindDir.C96_missing",
    "Verif.WindDir.C96_vector",
    "Verif.WindDir.C96_direction",
    "Verif.WindDir.C96_common",
    "Verif.WindDir.C96_order",
    "Verif.WindDir.C96_unit",
    "Verif.WindDir.C96_rotation",
    "Verif.WindDir.C96_calm_witness"
   ],
   "note": ""
  },
  {
   "property": "C97",
   "status": "partial",
   "theorems": [
    "Verif.SealedEvap.C97_density_false",
    "Verif.SealedEvap.C97_penman_partial",
    "Verif.SealedEvap.C97_low_sensor",
    "Verif.SealedEvap.C97_resistance",
    "Verif.SealedEvap.C97_slope",
    "Verif.SealedEvap.C97_nonneg",
    "Verif.SealedEvap.C97_sparse_bounds",
    "Verif.SealedEvap.C97_sparse_monotone",
    "Verif.SealedEvap.C97_sparse_ends"
   ],
   "note": "False for the air density, which is multiplied by the virtual temperature instead of divided (C97_density_false); everything else proved."
  },
  {
   "property": "C98",
   "status": "proved",
   "theorems": [
    "Verif.ShadowGrid.C98_resample",
    "Verif.ShadowGrid.C98_one",
    "Verif.ShadowGrid.C98_station"
   ],
   "note": ""
  },
  {
   "property": "C99",
   "status": "partial",
   "theorems": [
    "Verif.FillStations.C99_kept",
    "Verif.FillStations.C99_all_missing",
    "Verif.FillStations.C99_temp",
    "Verif.FillStations.C99_wind",
    "Verif.FillStations.C99_dates",
    "Verif.FillStations.C99_values",
    "Verif.FillStations.C99_missing_iff",
    "Verif.FillStations.C99_hum_partial",
    "Verif.FillStations.C99_no_temp",
    "Verif.FillStations.C99_hum_false",
    "Verif.FillStations.C99_adjustment_false"
   ],
   "note": "False for humidity on dates without any temperature (C99_hum_false) and for the adjustment factor, which divides by zero at some elevations (C99_adjustment_false). Measured values kept, values and dates proved for all trend methods; for temperature and wind exactly when a value stays missing (C99_missing_iff); humidity: C99_hum_partial."
  },
  {
   "property": "C100",
   "status": "proved",
   "theorems": [
    "Verif.LandCover.C100_mask",
    "Verif.LandCover.C100_classes",
    "Verif.LandCover.C100_evapotranspiration",
    "Verif.LandCover.C100_forest",
    "Verif.LandCover.C100_lai",
    "Verif.LandCover.C100_forest_lai_witness"
   ],
   "note": ""
  },
  {
   "property": "C101",
   "status": "proved",
   "theorems": [
    "Verif.Glacier.C101_elevation",
    "Verif.Glacier.C101_limit",
    "Verif.Glacier.C101_unlimited",
    "Verif.Glacier.C101_glacier"
   ],
   "note": ""
  },
  {
   "property": "C102",
   "status": "partial",
   "theorems": [
    "Verif.DataFlow.C102_partial",
    "Verif.DataFlow.C102_glaciers_false"
   ],
   "note": "Proved for all configurations and all module behaviours respecting the read/write table, with the glacier model until the first mass balance year ends; false afterwards, since the glacier ids are not retained (C102_glaciers_false)."
  },
  {
   "property": "C103",
   "status": "partial",
   "theorems": [
    "Verif.InputGrids.C103_dem",
    "Verif.InputGrids.C103_roi",
    "Verif.InputGrids.C103_roi_elevation_partial",
    "Verif.InputGrids.C103_roi_elevation_false",
    "Verif.InputGrids.C103_classes",
    "Verif.InputGrids.C103_glaciers_partial",
    "Verif.InputGrids.C103_glaciers_false",
    "Verif.InputGrids.C103_success"
   ],
   "note": "False for stations added on nodata pixels of the DEM (C103_roi_elevation_false) and for glacier rasters whose nodata value is positive (C103_glaciers_false); everything else proved."
  },
  {
   "property": "C104",
   "status": "proved",
   "theorems": [
    "Verif.MeteoFields.C104_no_memory",
    "Verif.MeteoFields.C104_outside",
    "Verif.MeteoFields.C104_no_coordinates",
    "Verif.MeteoFields.C104_missing",
    "Verif.MeteoFields.C104_no_stations",
    "Verif.MeteoFields.C104_ranges",
    "Verif.MeteoFields.C104_liston",
    "Verif.MeteoFields.C104_station",
    "Verif.MeteoFields.C104_wind_station",
    "Verif.MeteoFields.C104_wind_single",
    "Verif.MeteoFields.C104_defined"
   ],
   "note": ""
  },
  {
   "property": "C105",
   "status": "partial",
   "theorems": [
    "Verif.DerivedMeteo.C105_consistent",
    "Verif.DerivedMeteo.C105_dew_wet",
    "Verif.DerivedMeteo.C105_pixel",
    "Verif.DerivedMeteo.C105_open",
    "Verif.DerivedMeteo.C105_forest_false",
    "Verif.DerivedMeteo.C105_forest_witness"
   ],
   "note": "Consistency proved; the last part is false for forest pixels, whose temperature and humidity are changed after the derived variables have been calculated (C105_forest_false, C105_forest_witness)."
  },
  {
   "property": "C106",
   "status": "partial",
   "theorems": [
    "Verif.Shift.C106_pad",
    "Verif.Shift.C106_retain",
    "Verif.Shift.C106_retain_false",
    "Verif.Shift.C106_zero_false"
   ],
   "note": "Proved for the padding modes and n >= 1; in the retain mode values move by n + 1 pixels (C106_retain, C106_retain_false), and a padded shift by 0 pixels loses all columns (C106_zero_false)."
  },
  {
   "property": "C107",
   "status": "partial",
   "theorems": [
    "Verif.SoilWater.C107_evaporable_partial",
    "Verif.SoilWater.C107_fao",
    "Verif.SoilWater.C107_evaporable_false",
    "Verif.SoilWater.C107_available_partial",
    "Verif.SoilWater.C107_available_false",
    "Verif.SoilWater.C107_no_texture",
    "Verif.SoilWater.C107_no_land_cover",
    "Verif.SoilWater.C107_raises",
    "Verif.SoilWater.C107_run"
   ],
   "note": "False for shallow evaporation layers (C107_evaporable_false) and for large depletion fractions on coarse soils (C107_available_false); everything else proved."
  },
  {
   "property": "C108",
   "status": "partial",
   "theorems": [
    "Verif.PixelWater.C108_cryo_run",
    "Verif.PixelWater.C108_multilayer_run",
    "Verif.PixelWater.C108_precipitation",
    "Verif.PixelWater.C108_missing_step_witness",
    "Verif.PixelWater.C108_missing_false"
   ],
   "note": "Proved for all runs with given precipitation and temperature, for both snow models and pixels within and outside of the forest; false after a missing value in a forest pixel: the intercepted load stays missing and all later snowfall is lost (C108_missing_step_witness, C108_missing_false)."
  },
  {
   "property": "C109",
   "status": "proved",
   "theorems": [
    "Verif.RefEvapo.C109_fao",
    "Verif.RefEvapo.C109_slope",
    "Verif.RefEvapo.C109_nonneg",
    "Verif.RefEvapo.C109_monotone",
    "Verif.RefEvapo.C109_limits",
    "Verif.RefEvapo.C109_wind",
    "Verif.RefEvapo.C109_climate_correction",
    "Verif.RefEvapo.C109_corrected"
   ],
   "note": ""
  },
  {
   "property": "C110",
   "status": "proved",
   "theorems": [
    "Verif.EvapoClass.C110_step",
    "Verif.EvapoClass.C110_grid",
    "Verif.EvapoClass.C110_order",
    "Verif.EvapoClass.C110_run",
    "Verif.EvapoClass.C110_refines"
   ],
   "note": ""
  },
  {
   "property": "C111",
   "status": "partial",
   "theorems": [
    "Verif.ClearSkyField.C111_field",
    "Verif.ClearSkyField.C111_albedo",
    "Verif.ClearSkyField.C111_nonneg",
    "Verif.ClearSkyField.C111_station_partial",
    "Verif.ClearSkyField.C111_station_false"
   ],
   "note": "Field, albedo and sign proved for all inputs. For stations of an extended grid the diffuse part depends on other stations (C111_station_false): the sunlit fraction is taken from the selected stations instead of the grid. C111_station_partial: the direct part agrees always, the diffuse part for shaded stations and stations that see the whole sky."
  },
  {
   "property": "C112",
   "status": "proved",
   "theorems": [
    "Verif.OutputsAgree.C112_aggregated",
    "Verif.OutputsAgree.C112_instantaneous"
   ],
   "note": ""
  },
  {
   "property": "C113",
   "status": "proved",
   "theorems": [
    "Verif.StationFiles.C113_csv",
    "Verif.StationFiles.C113_csv_error",
    "Verif.StationFiles.C113_csv_excluded",
    "Verif.StationFiles.C113_csv_position",
    "Verif.StationFiles.C113_netcdf",
    "Verif.StationFiles.C113_netcdf_error",
    "Verif.StationFiles.C113_netcdf_excluded_witness"
   ],
   "note": ""
  },
  {
   "property": "C114",
   "status": "partial",
   "theorems": [
    "Verif.GridDataset.C114_shapes",
    "Verif.GridDataset.C114_created",
    "Verif.GridDataset.C114_place",
    "Verif.GridDataset.C114_check_dead",
    "Verif.GridDataset.C114_sum",
    "Verif.GridDataset.C114_instantaneous",
    "Verif.GridDataset.C114_sum_false"
   ],
   "note": "Shapes, creation and placement proved for all field lists. Integer sums are exact exactly if they fit into 32 bits (C114_sum); without this condition the claim is false (C114_sum_false). Output names of coordinates make creation fail. Rounding to float32 is not modelled."
  },
  {
   "property": "C115",
   "status": "proved",
   "theorems": [
    "Verif.PrecipTable.C115_only_precip",
    "Verif.PrecipTable.C115_dry",
    "Verif.PrecipTable.C115_constant",
    "Verif.PrecipTable.C115_independent"
   ],
   "note": ""
  },
  {
   "property": "C116",
   "status": "partial",
   "theorems": [
    "Verif.SvfFile.C116_first",
    "Verif.SvfFile.C116_keeps",
    "Verif.SvfFile.C116_kept_forever",
    "Verif.SvfFile.C116_later_partial",
    "Verif.SvfFile.C116_repeat_partial",
    "Verif.SvfFile.C116_checked",
    "Verif.SvfFile.C116_repeat_false",
    "Verif.SvfFile.C116_stale_false"
   ],
   "note": "False as stated: the first run uses the unrounded field and later runs the rounded file (C116_repeat_false), and a file left by a run with another DEM or number of sweeps is used without check (C116_stale_false). Proved: what every run uses, given the files left by any sequence of runs, agreement of all repetitions and a bound of half a unit of the third decimal."
  },
  {
   "property": "C117",
   "status": "proved",
   "theorems": [
    "Verif.SimTime.C117_instant",
    "Verif.SimTime.C117_simulation_timezone",
    "Verif.SimTime.C117_region",
    "Verif.SimTime.C117_day_of_year"
   ],
   "note": ""
  },
  {
   "property": "C118",
   "status": "proved",
   "theorems": [
    "Verif.ForcingPath.C118_netcdf",
    "Verif.ForcingPath.C118_csv"
   ],
   "note": ""
  },
  {
   "property": "C119",
   "status": "partial",
   "theorems": [
    "Verif.PixelBudget.C119_cryo_partial",
    "Verif.PixelBudget.C119_multilayer_partial",
    "Verif.PixelBudget.C119_false",
    "Verif.PixelBudget.C119_melt_false"
   ],
   "note": "False of the code: rain is counted in the snow model (snowpack or runoff) and again in the root zone, and meltwater never reaches the soil (C119_false, C119_melt_false). Proved instead for all runs: the exact balance with the second count of the rain and the water evapotranspiration takes from an empty root zone as separate terms. Soil properties are constant over the run."
  },
  {
   "property": "C120",
   "status": "proved",
   "theorems": [
    "Verif.DataFlow.C120_variables",
    "Verif.DataFlow.C120_attributes",
    "Verif.DataFlow.C120_validation"
   ],
   "note": ""
  },
  {
   "property": "C121",
   "status": "partial",
   "theorems": [
    "Verif.MultiLayer.C121_undefined_iff",
    "Verif.MultiLayer.C121_full_melt",
    "Verif.MultiLayer.C121_moderate",
    "Verif.MultiLayer.C121_solid",
    "Verif.MultiLayer.C121_run_partial",
    "Verif.MultiLayer.C121_thin_remainder_witness",
    "Verif.MultiLayer.C121_heat_witness"
   ],
   "note": "False in general: C121_thin_remainder_witness (a run of two days from bare ground) and C121_heat_witness. Proved: exactly when a step gives NaN (C121_undefined_iff, under moderate heat and a surface not below the melting point while melt is demanded), that solid packs stay solid, that complete melt is safe, and that a run of any length fails only at a step in one of the named situations. Exact arithmetic; rounding is not modelled."
  },
  {
   "property": "C122",
   "status": "partial",
   "theorems": [
    "Verif.Coupled.C122_run",
    "Verif.Coupled.C122_light",
    "Verif.Coupled.C122_energy",
    "Verif.Coupled.C122_soil",
    "Verif.Coupled.C122_undefined_iff",
    "Verif.Coupled.C122_full_melt",
    "Verif.Coupled.C122_nan_partial",
    "Verif.Coupled.C122_bare"
   ],
   "note": "Proved: every step of the coupled model is a step of Model/MultiLayerStep with admissible inputs; water balance, contents, albedo for runs of any length from the initial state (C122_run), the exact condition for NaN in a step (C122_undefined_iff) and the possible causes in a run (C122_nan_partial). Conditional on LightRun for Anderson compaction with retention in the pore volume (C122_light: automatic otherwise). C126 bounds the surface temperature under explicit conditions on the weather and the temperature of the surface layer. C127_nan excludes layers that melt by their own heat under explicit conditions on weather and time step; not shown for the default configuration, where C127 is false. Forcing without NaN; canopy, evapotranspiration and glaciers off."
  },
  {
   "property": "C123",
   "status": "proved",
   "theorems": [
    "Verif.MultiLayer.C123_step",
    "Verif.MultiLayer.C123_new_snow",
    "Verif.MultiLayer.C123_run",
    "Verif.Coupled.C123_coupled"
   ],
   "note": ""
  },
  {
   "property": "C124",
   "status": "partial",
   "theorems": [
    "Verif.CoupledCryo.C124_step",
    "Verif.CoupledCryo.C124_run",
    "Verif.CoupledCryo.C124_fair",
    "Verif.CoupledCryo.C124_independent",
    "Verif.CoupledCryo.C124_latent_partial",
    "Verif.CoupledCryo.C124_latent_false"
   ],
   "note": "Proved for all domains and forcing series: the run from the initial state is defined and every step satisfies the balances and ranges of StepOK (C124_step, C124_run); with the secant search pixels are independent (C124_independent). Conditional on FairRun (compaction leaves no layer denser than ice, needed only for retention in the pore volume; balance at the melting point of at most 360 W m-2 in frost, needed only for the secant search), which C124_fair derives from bounds on the weather for mass-fraction retention. The claim about the latent heat is false: snow at the melting point takes that of evaporation if the new snow layer is empty (C124_latent_false); C124_latent_partial gives the value. Forcing without NaN; canopy, evapotranspiration and glaciers off."
  },
  {
   "property": "C125",
   "status": "partial",
   "theorems": [
    "Verif.Snow.C125_density_false",
    "Verif.CoupledCryo.C125_water_false",
    "Verif.CoupledCryo.C125_fair_false"
   ],
   "note": "False of the code: Anderson compaction has no limit and takes every layer of every snowpack beyond any given density (C125_density_false); for every configuration with retention in the pore volume a run of the coupled cryolayer model from its initial state reaches a negative liquid water content and runoff of dry, cold snow (C125_water_false), so the condition on compaction in C124_run cannot be dropped (C125_fair_false). Where compaction does not exceed the density of ice the claim is part of C124 and C33; the empirical method is bounded by its configured densities (C25)."
  },
  {
   "property": "C126",
   "status": "proved",
   "theorems": [
    "Verif.Surface.C126_range",
    "Verif.Surface.C126_humidity",
    "Verif.Coupled.C126_run",
    "Verif.Coupled.C126_nan"
   ],
   "note": ""
  },
  {
   "property": "C127",
   "status": "partial",
   "theorems": [
    "Verif.Heat.C127_range_partial",
    "Verif.Heat.C127_false",
    "Verif.Heat.C127_melting_witness",
    "Verif.Heat.C127_law",
    "Verif.Heat.C127_swing",
    "Verif.Coupled.C127_step",
    "Verif.Coupled.C127_run",
    "Verif.Coupled.C127_nan",
    "Verif.Coupled.C127_soil",
    "Verif.Coupled.C127_thick"
   ],
   "note": "False in general: the flux is taken at the old temperature of the top layer, so fresh snow overshoots with the default time step (C127_false, C127_melting_witness) and a layer under constant surface temperature swings with growing amplitude (C127_law, C127_swing). Proved: the range under 2*lambda*dt <= thickness*heat capacity of the top layer (C127_range_partial), runs of the coupled multilayer model in which the surface flux keeps the top layer within the range in every step (C127_step, C127_run; C127_soil and C127_thick give sufficient conditions), and that such runs give NaN only where a thin remainder is left (C127_nan, mass-fraction retention). Not shown: a condition on the configuration alone for thin snow."
  },
  {
   "property": "C128",
   "status": "proved",
   "theorems": [
    "Verif.WetBulb.C128_terminates",
    "Verif.WetBulb.C128_pixel",
    "Verif.WetBulb.C128_grid"
   ],
   "note": ""
  },
  {
   "property": "C129",
   "status": "proved",
   "theorems": [
    "Verif.Meteorology.C129_step",
    "Verif.Meteorology.C129_multilayer",
    "Verif.Meteorology.C129_cryo"
   ],
   "note": ""
  },
  {
   "property": "C130",
   "status": "partial",
   "theorems": [
    "Verif.CanopySubl.C130_balance",
    "Verif.CanopySubl.C130_loss",
    "Verif.CanopySubl.C130_monotone",
    "Verif.CanopySubl.C130_frost_point",
    "Verif.CanopySubl.C130_missing",
    "Verif.CanopySubl.C130_density",
    "Verif.CanopySubl.C130_density_false",
    "Verif.CanopySubl.C130_too_small",
    "Verif.CanopySubl.C130_sublimation"
   ],
   "note": "False of the code as far as the saturation vapour density is concerned: 0.622 is applied twice (C130_density, C130_density_false), which makes the loss too small for every weather (C130_too_small). Proved for the density used: the rate is the unique solution of heat balance and vapour flux (C130_balance), is a loss (C130_loss), monotone (C130_monotone), bounded by the frost point (C130_frost_point), zero for missing input (C130_missing), and enters the canopy books without being cut off (C130_sublimation). Temperatures up to 6000 K; albedo and vapour pressure are inputs (the program takes the ground albedo of the previous step and the pressure above the canopy)."
  },
  {
   "property": "C131",
   "status": "partial",
   "theorems": [
    "Verif.GlacierMass.C131_untouched",
    "Verif.GlacierMass.C131_total",
    "Verif.GlacierMass.C131_kept_partial",
    "Verif.GlacierMass.C131_gain",
    "Verif.GlacierMass.C131_balanced",
    "Verif.GlacierMass.C131_growth_false"
   ],
   "note": "False of the code: ice content is thickness times 917 for all pixels although thickness was derived with transition.ice (default 900). Proved: the exact change of every pixel not updated (C131_untouched), unbounded growth over the years (C131_growth_false), double counting of liquid water and creation of ice by cutting off (C131_total); conservation with transition density 917, dry ice layers and no cutting off (C131_kept_partial)."
  },
  {
   "property": "C132",
   "status": "partial",
   "theorems": [
    "Verif.Coupled.C132_step_partial",
    "Verif.Coupled.C132_base_false"
   ],
   "note": "All parts proved for every step of the coupled model (C132_step_partial) except that heat leaving the snow enters the soil, which is false of the code: the conduction of the snow uses the temperature of the last snow slot as lower boundary (C132_base_false)."
  },
  {
   "property": "C133",
   "status": "partial",
   "theorems": [
    "Verif.Resample.C133_kept_partial",
    "Verif.Resample.C133_daily_kept_partial",
    "Verif.Resample.C133_daily_false"
   ],
   "note": "False for daily data if the daily time step is not spelled \"D\" (for example \"1D\" or \"24h\"): the data pass through resampling with left labels, and every date gets the precipitation and gusts of the following day (C133_daily_false; with aggregation all variables, see the examples). C133_kept_partial covers all time steps below one day, C133_daily_kept_partial the spelling \"D\"."
  },
  {
   "property": "C134",
   "status": "partial",
   "theorems": [
    "Verif.Terrain.C134_slope",
    "Verif.Terrain.C134_complete_partial",
    "Verif.Terrain.C134_normal",
    "Verif.Terrain.C134_curvature",
    "Verif.Terrain.C134_spread_false"
   ],
   "note": "False: every pixel without data makes its neighbours lose slope and aspect, and those to the south, west and south-west their normal vector and direct irradiance (C134_spread_false). C134_slope, C134_normal and C134_curvature give the exact cells each quantity depends on; C134_complete_partial the values for pixels with complete surroundings."
  },
  {
   "property": "C135",
   "status": "partial",
   "theorems": [
    "Verif.Callback.C135_replay_partial",
    "Verif.Callback.C135_srf_false",
    "Verif.Callback.C135_canopy_false",
    "Verif.Callback.C135_fraction"
   ],
   "note": "False with snow redistribution factors (recorded precipitation is already redistributed and is redistributed again, C135_srf_false) and for forest pixels (recorded temperature, humidity and wind speed are those below the canopy, C135_canopy_false). C135_replay_partial covers every run without the two, whatever the recorded run derives its fields from; C135_fraction: a callback has to assign the cloud fraction besides the cloud factor."
  },
  {
   "property": "C136",
   "status": "proved",
   "theorems": [
    "Verif.Parallel.C136_interleaving",
    "Verif.Parallel.C136_deterministic",
    "Verif.Parallel.C136_ends",
    "Verif.Parallel.C136_roi",
    "Verif.Parallel.C136_completes",
    "Verif.Parallel.C136_melt",
    "Verif.Parallel.C136_sublimation",
    "Verif.Parallel.C136_runoff",
    "Verif.Parallel.C136_layers",
    "Verif.Parallel.C136_anderson",
    "Verif.Parallel.C136_empirical",
    "Verif.Parallel.C136_soil",
    "Verif.Parallel.C136_soil_flux",
    "Verif.Parallel.C136_heat",
    "Verif.Parallel.C136_idw"
   ],
   "note": ""
  },
  {
   "property": "C137",
   "status": "partial",
   "theorems": [
    "Verif.Rounded.C137_signs",
    "Verif.Rounded.C137_balance",
    "Verif.Rounded.C137_exact",
    "Verif.Rounded.C137_format",
    "Verif.Rounded.C137_residue_false"
   ],
   "note": "The last part is false: melt of all the ice can leave one unit in the last place (C137_residue_false, for every format with four or more digits). Signs and balance are proved for every rounding function (C137_signs, C137_balance), floating point formats are shown to be such functions (C137_format), and without rounding the step is that of the cryolayer model (C137_exact). Overflow and underflow are left out; C137_balance asks for u <= 1/1000."
  },
  {
   "property": "C138",
   "status": "partial",
   "theorems": [
    "Verif.Rounded.C138_bounds",
    "Verif.Rounded.C138_format",
    "Verif.Rounded.C138_exact",
    "Verif.Rounded.C138_bounds_false"
   ],
   "note": "False without a condition on thin layers: in double precision and with the default configuration, relayering a snowpack of 2 m above a layer thinner than one unit in the last place writes behind the arrays (C138_bounds_false). With all old layers thicker than the accumulated rounding error (9 u B (n + m)) the loop stays within the arrays, fills every new layer and keeps depth and non-negative contents up to rounding (C138_bounds), for every floating point format (C138_format). Energy, which is negative below the melting point, is not covered by the content bound; underflow and overflow are not modelled."
  },
  {
   "property": "C139",
   "status": "partial",
   "theorems": [
    "Verif.Terrain.C139_slope",
    "Verif.Terrain.C139_curvature",
    "Verif.Terrain.C139_normal_shift",
    "Verif.Terrain.C139_normal_false",
    "Verif.Shadows.C139_shadows_transpose",
    "Verif.Shadows.C139_shadows_mirror_partial",
    "Verif.Shadows.C139_shadows_false"
   ],
   "note": "Slope, aspect and curvature are proved for every pixel. Shadows are proved for every transposed raster, and for mirrored rasters with an odd number of columns (rows) or without a line that passes exactly between two cells; C139_shadows_false shows four cells where mirroring changes the shadow. Normal vectors are false of the code: C139_normal_shift shows that they belong to the neighbouring pixel after mirroring, C139_normal_false that every symmetric crest faces east."
  },
  {
   "property": "C140",
   "status": "partial",
   "theorems": [
    "Verif.ForcingPath.C140_netcdf",
    "Verif.ForcingPath.C140_csv",
    "Verif.PrecipTable.C140_corrections",
    "Verif.Resample.C140_resampled_partial",
    "Verif.Resample.C140_resampled_false"
   ],
   "note": "Fields, corrections and resampling below one day are proved for all data. For data aggregated to days the last day is covered if the first record used is at midnight (C140_resampled_partial); otherwise the claim is false of the code: C140_resampled_false shows a station whose last daily mean changes with the end of the simulation. Both runs are assumed to read their data without an exception."
  },
  {
   "property": "C141",
   "status": "partial",
   "theorems": [
    "Verif.InitForcing.C141_unchanged",
    "Verif.InitForcing.C141_forcing",
    "Verif.InitForcing.C141_accept",
    "Verif.InitForcing.C141_callback",
    "Verif.InitForcing.C141_sessions",
    "Verif.InitForcing.C141_reuse_partial",
    "Verif.InitForcing.C141_reuse_false"
   ],
   "note": "Everything up to acceptance, unchanged arrays, forcing of every model of any sequence of initialisations is proved for all datasets and settings. The last sentence is false of the code: model.meteo is accepted as a dataset and its precipitation is corrected again (C141_reuse_partial, C141_reuse_false)."
  },
  {
   "property": "C142",
   "status": "partial",
   "theorems": [
    "Verif.InitForcing.C142_grid_partial",
    "Verif.InitForcing.C142_global",
    "Verif.InitForcing.C142_rect",
    "Verif.InitForcing.C142_upper_false",
    "Verif.InitForcing.C142_lower_false"
   ],
   "note": "Global bounds and lists are proved; for the grid the two criteria are proved to agree except on two edges: stations on the upper edge are within the extent but not read, stations on the lower edge are read but not within the extent (C142_upper_false, C142_lower_false)."
  },
  {
   "property": "C143",
   "status": "partial",
   "theorems": [
    "Verif.Gaps.C143_complete",
    "Verif.Gaps.C143_run",
    "Verif.Gaps.C143_light",
    "Verif.Gaps.C143_undefined_iff",
    "Verif.Gaps.C143_nan_partial",
    "Verif.Gaps.C143_still",
    "Verif.Gaps.C143_bare",
    "Verif.Gaps.C143_warm",
    "Verif.Gaps.C143_gap",
    "Verif.Gaps.C143_melt_false",
    "Verif.GapsCanopy.C143_canopy_complete",
    "Verif.GapsCanopy.C143_canopy_iff",
    "Verif.GapsCanopy.C143_canopy_false",
    "Verif.GapsCanopy.C143_forest",
    "Verif.GapsCryo.C143_cryo_step",
    "Verif.GapsCryo.C143_cryo_run",
    "Verif.GapsCryo.C143_cryo_fair",
    "Verif.GapsCryo.C143_cryo_false",
    "Verif.GapsCryo.C143_cryo_complete",
    "Verif.GapsCryo.C143_cryo_witness",
    "Verif.EvapoClass.C143_evapo",
    "Verif.GapsMeteo.C143_stations"
   ],
   "note": "Multilayer and cryolayer snowpack: any pattern of gaps keeps contents and water balance, from station records to the multilayer snowpack. False in three places: snow on a surface above the melting point melts during a gap (C143_melt_false); the cryolayer model sets the surface of snow in frost to the melting point during a gap (C143_cryo_false); a gap in snowfall or temperature makes the snow load of the canopy NaN for the rest of the run (C143_canopy_false, exactly then: C143_canopy_iff). That ordinary weather excludes the situations of C122 is not shown (C143_nan_partial)."
  },
  {
   "property": "C144",
   "status": "partial",
   "theorems": [
    "Verif.ExtIrradiance.C144_selected",
    "Verif.ExtIrradiance.C144_used",
    "Verif.ExtIrradiance.C144_method",
    "Verif.ExtIrradiance.C144_inner",
    "Verif.ExtIrradiance.C144_range",
    "Verif.ExtIrradiance.C144_bounds",
    "Verif.ExtIrradiance.C144_available_partial",
    "Verif.ExtIrradiance.C144_outside_false"
   ],
   "note": "Selection, pairing, fallbacks, range and bounds proved for all grids, accepted extended grids, stations and runs. Availability needs clear-sky values at all stations used (C144_available_partial); it is false for a station within the extent of the grid but outside of the domain (C144_outside_false). Cells of the extended grid at the stations are assumed to have elevation and normal vector."
  },
  {
   "property": "C145",
   "status": "partial",
   "theorems": [
    "Verif.AppendOutput.C145_direct",
    "Verif.AppendOutput.C145_contents",
    "Verif.AppendOutput.C145_prefix",
    "Verif.AppendOutput.C145_start",
    "Verif.AppendOutput.C145_same_partial",
    "Verif.AppendOutput.C145_unsorted_false",
    "Verif.AppendOutput.C145_between_false"
   ],
   "note": "Exact contents of both files proved for all fields, output dates without repetitions and runs (C145_direct, C145_contents); the prefix and the equality of the files for increasing output dates on the model time axis (all dates from frequencies). False for unsorted output dates (C145_unsorted_false) and for dates between the time steps (C145_between_false)."
  },
  {
   "property": "C146",
   "status": "partial",
   "theorems": [
    "Verif.ForcingPath.C146_files_partial",
    "Verif.ForcingPath.C146_csv_partial",
    "Verif.ForcingPath.C146_netcdf_partial",
    "Verif.MeteoFields.C146_order_partial",
    "Verif.MeteoFields.C146_variable_partial",
    "Verif.MeteoFields.C146_origin",
    "Verif.MeteoFields.C146_collocated_false",
    "Verif.Irradiance.C146_cloud_partial",
    "Verif.Irradiance.C146_cloud_origin",
    "Verif.Meteorology.C146_run_partial",
    "Verif.Meteorology.C146_run_cryo_partial"
   ],
   "note": "The fields of every meteorological variable, the cloud factor, the inputs of both snow models and the fields from csv or netCDF files do not depend on the order of the stations, on stations without data or position, nor on the origin of the coordinates. Needs at most one station in the centre of a pixel (false otherwise, C146_collocated_false) and, for the fractional trend method, a piecewise linear fit that does not depend on the order of its points."
  },
  {
   "property": "C147",
   "status": "partial",
   "theorems": [
    "Verif.CsvOutput.C147_file_partial",
    "Verif.CsvOutput.C147_columns_partial",
    "Verif.CsvOutput.C147_names",
    "Verif.CsvOutput.C147_default",
    "Verif.CsvOutput.C147_memory",
    "Verif.CsvOutput.C147_overwritten_false",
    "Verif.CsvOutput.C147_dropped_false"
   ],
   "note": "Exact lines of the file for all accepted variables whose layer columns do not clash with other names (C147_file_partial, C147_columns_partial); names that do not end in a digit never clash (C147_names), nor do the default variables (C147_default); in-memory output for all runs (C147_memory). False for other names: C147_overwritten_false, C147_dropped_false."
  },
  {
   "property": "C148",
   "status": "partial",
   "theorems": [
    "Verif.Gaps.C148_dry_false",
    "Verif.Gaps.C148_run_false",
    "Verif.Gaps.C148_moist_partial",
    "Verif.Gaps.C148_covered",
    "Verif.Gaps.C148_covered_step",
    "Verif.Gaps.C148_witness"
   ],
   "note": "Proved for moist soil. False of the code for completely dry soil: the surface of bare ground keeps its temperature for ever (C148_dry_false, C148_run_false, C148_witness)."
  },
  {
   "property": "C149",
   "status": "partial",
   "theorems": [
    "Verif.Meteorology.C149_wetBulb",
    "Verif.Meteorology.C149_interp_partial",
    "Verif.Meteorology.C149_scalar",
    "Verif.Meteorology.C149_step_partial",
    "Verif.Meteorology.C149_run_partial",
    "Verif.Meteorology.C149_cryo_partial",
    "Verif.Meteorology.C149_cryo_run_partial",
    "Verif.Meteorology.C149_single_false",
    "Verif.Meteorology.C149_enforce_partial",
    "Verif.Meteorology.C149_enforce_false",
    "Verif.Meteorology.C149_wind_false"
   ],
   "note": "Proved for wind without terrain correction and no rule on snow below rain (for the rule: monotone); false otherwise (C149_single_false, C149_wind_false, C149_enforce_false) and for the stepwise surface temperature search (C80_other_pixels_false); incoming radiation is an input."
  },
  {
   "property": "C150",
   "status": "partial",
   "theorems": [
    "Verif.LongwaveField.C150_longwave_open",
    "Verif.LongwaveField.C150_longwave_mixture",
    "Verif.LongwaveField.C150_hidden_false",
    "Verif.ClearSkyField.C150_direct",
    "Verif.ClearSkyField.C150_open_partial",
    "Verif.ClearSkyField.C150_albedo_false"
   ],
   "note": "Longwave and direct irradiance as stated; diffuse irradiance under an open sky is the same only for regions with the same mean albedo (C150_open_partial) and otherwise increases with it (C150_albedo_false)."
  },
  {
   "property": "C151",
   "status": "partial",
   "theorems": [
    "Verif.Surface.C151_lower_partial",
    "Verif.Surface.C151_positive_partial",
    "Verif.Surface.C151_upper_partial",
    "Verif.Surface.C151_upper_false",
    "Verif.Surface.C151_rain_false"
   ],
   "note": "Lower bound and positivity where precipitation does not cool the surface; upper bound up to an overshoot of second order. Witnesses: overshoot in sunshine from a cold start, heavy cold rain."
  },
  {
   "property": "C152",
   "status": "partial",
   "theorems": [
    "Verif.TimeSplit.C152_melt",
    "Verif.TimeSplit.C152_sublimation",
    "Verif.TimeSplit.C152_accumulation",
    "Verif.TimeSplit.C152_runoff",
    "Verif.TimeSplit.C152_albedo_partial",
    "Verif.TimeSplit.C152_refresh_false",
    "Verif.TimeSplit.C152_settling",
    "Verif.TimeSplit.C152_anderson_false"
   ],
   "note": "Processes are taken one at a time. Proved for temperature-index melt, sublimation and deposition, snowfall, drainage, empirical settling and the albedo; false for continuous refresh at moderate snowfall (C152_refresh_false, always brighter) and for Anderson compaction (C152_anderson_false)."
  },
  {
   "property": "C153",
   "status": "proved",
   "theorems": [
    "Verif.Comparison.C153_step",
    "Verif.Comparison.C153_run",
    "Verif.Comparison.C153_enhanced_false",
    "Verif.Comparison.C153_swe_false"
   ],
   "note": ""
  },
  {
   "property": "C154",
   "status": "proved",
   "theorems": [
    "Verif.Forgetting.C154_reset",
    "Verif.Forgetting.C154_end",
    "Verif.Forgetting.C154_runs",
    "Verif.Forgetting.C154_index",
    "Verif.ForgettingMulti.C154_multilayer_reset",
    "Verif.ForgettingMulti.C154_multilayer_step",
    "Verif.ForgettingMulti.C154_multilayer_runs"
   ],
   "note": ""
  },
  {
   "property": "C155",
   "status": "partial",
   "theorems": [
    "Verif.Sensitivity.C155_run_partial",
    "Verif.Sensitivity.C155_same_weather_partial",
    "Verif.Sensitivity.C155_temperature",
    "Verif.Sensitivity.C155_deposition_false"
   ],
   "note": "Proved without deposition; with a moisture flux to the surface a remnant of snow collects frost and bare ground does not, so that the difference can grow (C155_deposition_false)."
  },
  {
   "property": "C156",
   "status": "partial",
   "theorems": [
    "Verif.SoilComparison.C156_sealed",
    "Verif.SoilComparison.C156_sealed_approach",
    "Verif.SoilComparison.C156_root_zone_partial",
    "Verif.SoilComparison.C156_root_zone_approach_partial",
    "Verif.SoilComparison.C156_strong_demand_false",
    "Verif.SoilComparison.C156_dual_false"
   ],
   "note": "Proved for sealed surfaces without restriction and for single crop coefficients unless a time step has rain and a potential evapotranspiration above TAW - RAW; in such time steps and with dual crop coefficients the order can be reversed (witnesses)."
  },
  {
   "property": "C157",
   "status": "partial",
   "theorems": [
    "Verif.Layouts.C157_region",
    "Verif.Layouts.C157_float_partial",
    "Verif.Layouts.C157_aggregated_partial",
    "Verif.Layouts.C157_integer_false",
    "Verif.Layouts.C157_decoded_false"
   ],
   "note": "The cells of the region agree for all variables; whole fields agree for float variables without data outside of the region and for aggregates that are not decoded or have float results. False for integer variables with cells outside of the region, in memory and after decoding (C157_integer_false, C157_decoded_false)."
  },
  {
   "property": "C158",
   "status": "proved",
   "theorems": [
    "Verif.HeatComparison.C158_step",
    "Verif.HeatComparison.C158_run",
    "Verif.HeatComparison.C158_differences",
    "Verif.HeatComparison.C158_heat",
    "Verif.HeatComparison.C158_soil",
    "Verif.HeatComparison.C158_freezing_false"
   ],
   "note": "Proved as stated, for columns with the same thermal properties in each time step; with the properties the soil model computes from temperature and moisture freezing can reverse the order (C158_freezing_false)."
  },
  {
   "property": "C159",
   "status": "partial",
   "theorems": [
    "Verif.StationErrors.C159_higher_partial",
    "Verif.StationErrors.C159_errors_partial",
    "Verif.StationErrors.C159_humidity_partial",
    "Verif.StationErrors.C159_adjustment_partial",
    "Verif.StationErrors.C159_precip",
    "Verif.StationErrors.C159_regression_false",
    "Verif.StationErrors.C159_fractional_false"
   ],
   "note": "Order and bound proved for fixed lapse rates; order proved for relative humidity with dew points above 39 K and for adjustment factors (C159_precip for all elevations). With fitted trends the claim is false (one kelvin at a low station changes a high pixel by nine), with fractional lapse rates the order (C159_fractional_false)."
  },
  {
   "property": "C160",
   "status": "partial",
   "theorems": [
    "Verif.OpennessMap.C160_range",
    "Verif.OpennessMap.C160_datum",
    "Verif.OpennessMap.C160_units",
    "Verif.OpennessMap.C160_radius",
    "Verif.OpennessMap.C160_sum",
    "Verif.OpennessMap.C160_flat",
    "Verif.OpennessMap.C160_plane_partial",
    "Verif.OpennessMap.C160_terrain",
    "Verif.OpennessMap.C160_schedule",
    "Verif.OpennessMap.C160_border_false"
   ],
   "note": "Everything proved for all rasters, except that inclined planes have an openness of 90 degrees only at pixels farther from the border than the radius (C160_plane_partial); at the border the retained elevations give less (C160_border_false)."
  },
  {
   "property": "C161",
   "status": "partial",
   "theorems": [
    "Verif.Shadows.C161_shadow",
    "Verif.Shadows.C161_skyview_partial",
    "Verif.Shadows.C161_search_false"
   ],
   "note": "Shadows: proved. Sky view factor: proved if the steepest slope of the raster, at which the horizon search ends, does not get smaller; a lower end of the search makes the sky view factor of cells that are never lit larger (C161_search_false)."
  },
  {
   "property": "C162",
   "status": "proved",
   "theorems": [
    "Verif.Idw.C162_near",
    "Verif.Idw.C162_limit",
    "Verif.Idw.C162_far"
   ],
   "note": "Bound near a station, limit at a station, bound far from all stations, over the model of the interpolation without smoothing (0 in every call of the code)."
  }
 ]
}