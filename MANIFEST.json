{
 "claims": [
  {
   "property": "C01",
   "status": "proved",
   "theorems": [
    "Verif.Queue.C01_get_returns_last_put"
   ],
   "note": "All call sequences of one queue, every capacity and timeout."
  },
  {
   "property": "C02",
   "status": "proved",
   "theorems": [
    "Verif.Queue.C02_bounded"
   ],
   "note": "All call sequences."
  },
  {
   "property": "C03",
   "status": "proved",
   "theorems": [
    "Verif.Queue.C03_frame"
   ],
   "note": "All call sequences."
  },
  {
   "property": "C04",
   "status": "partial",
   "theorems": [
    "Verif.Queue.C04_get_nonblock_fails",
    "Verif.Queue.C04_put_nonblock_fails",
    "Verif.Queue.C04_nonblock_partial",
    "Verif.Queue.C04_blocking_partial"
   ],
   "note": "The full claim is false for non-blocking calls (errors are swallowed and None is returned / the item is dropped); proved for blocking calls. C04_nonblock_partial says exactly what the non-blocking calls do."
  },
  {
   "property": "C05",
   "status": "partial",
   "theorems": [
    "Verif.Queue.C05_local_fails",
    "Verif.Queue.C05_honoured_fails",
    "Verif.Queue.C05_timeout_partial"
   ],
   "note": "The full claim is false (timeout of one call persists for later calls; put ignores its timeout argument); proved what holds of a timed get."
  },
  {
   "property": "C06",
   "status": "proved",
   "theorems": [
    "Verif.Pipeline.C06_deterministic",
    "Verif.Pipeline.C06_finished_agree",
    "Verif.Pipeline.C06_agrees_with_serial",
    "Verif.Pipeline.C06_serial_is_published"
   ],
   "note": "All schedules, capacities, numbers of dates and thread bodies; equality with the serial loop on the same bodies."
  },
  {
   "property": "C07",
   "status": "proved",
   "theorems": [
    "Verif.Pipeline.C07_never_waits_for_removed",
    "Verif.Pipeline.C07_all_reads_done"
   ],
   "note": "All schedules and capacities of well-formed networks."
  },
  {
   "property": "C08",
   "status": "proved",
   "theorems": [
    "Verif.Pipeline.C08_no_deadlock",
    "Verif.Pipeline.C08_bounded_length",
    "Verif.Pipeline.C08_terminates"
   ],
   "note": "All schedules and capacities of well-formed networks; explicit bound on the length of executions."
  },
  {
   "property": "C09",
   "status": "partial",
   "theorems": [
    "Verif.Network.C09_completes_partial",
    "Verif.Network.C09_bounded_partial",
    "Verif.Network.C09_frequency_fails",
    "Verif.Network.C09_solar_flags_fails",
    "Verif.Network.C09_winstral_rescaling_fails",
    "Verif.Network.C09_fails"
   ],
   "note": "Proved for the configurations in `Supported`; false in general: output frequency > 1, a solar correction switched off, or winstral rescaling without the winstral wind model leave the run stuck (C09_*_fails). Missing from the full claim: exactly those configurations."
  },
  {
   "property": "C10",
   "status": "partial",
   "theorems": [
    "Verif.Network.C10_threaded_equals_serial_partial",
    "Verif.Network.C10_same_arguments_partial",
    "Verif.Network.C10_wind_argument_fails",
    "Verif.Network.C10_same_outputs_partial",
    "Verif.Network.C10_outputs_fails"
   ],
   "note": "Values agree for every schedule when precipitation is not rescaled with winstral; with winstral the drivers pass different wind fields (C10_wind_argument_fails). Output sets agree exactly when all requested variables are thread variables (C10_outputs_fails)."
  },
  {
   "property": "C11",
   "status": "partial",
   "theorems": [
    "Verif.Network.C11_capacity_one_partial",
    "Verif.Network.C11_fails"
   ],
   "note": "Holds for queue_max_values = 1; false for the default 2 (C11_fails: storm_days is published by reference and updated in place)."
  },
  {
   "property": "C12",
   "status": "partial",
   "theorems": [
    "Verif.Output.C12_multiples_partial",
    "Verif.Output.C12_same_steps",
    "Verif.Output.C12_in_order",
    "Verif.Output.C12_last_step_fails",
    "Verif.Output.C12_fails"
   ],
   "note": "Steps that are multiples of the frequency are written, once, in order, by both drivers. False as stated: the last step is not written unless it is a multiple (C12_last_step_fails)."
  },
  {
   "property": "C13",
   "status": "partial",
   "theorems": [
    "Verif.Output.C13_latest_record_partial",
    "Verif.Output.C13_records_stay_partial",
    "Verif.Output.C13_crash_restart_partial",
    "Verif.Output.C13_rounding_fails",
    "Verif.Output.C13_fails"
   ],
   "note": "All write histories; false when the float32 time coordinate rounds two dates together or a date away from itself (C13_rounding_fails), proved when the stored coordinate is exact. The comparison of times is in double precision as in numpy 2; for single precision (numpy 1) and for the actual rounding see C126."
  },
  {
   "property": "C14",
   "status": "partial",
   "theorems": [
    "Verif.Output.C14_none_is_zero",
    "Verif.Output.C14_value_unchanged",
    "Verif.Output.C14_mask_partial",
    "Verif.Output.C14_shape",
    "Verif.Output.C14_nan_fails",
    "Verif.Output.C14_fails"
   ],
   "note": "False for NaN cells outside the mask (NaN * 0 is NaN, C14_nan_fails); proved for defined cells."
  },
  {
   "property": "C15",
   "status": "proved",
   "theorems": [
    "Verif.Output.C15_exactly_requested_known",
    "Verif.Output.C15_each_once",
    "Verif.Output.C15_entry",
    "Verif.Output.C15_files_distinct",
    "Verif.Output.C15_unknown_ignored"
   ],
   "note": "All requested lists and module sets."
  },
  {
   "property": "C16",
   "status": "proved",
   "theorems": [
    "Verif.Utils.C16_shape",
    "Verif.Utils.C16_within",
    "Verif.Utils.C16_in_range_unchanged",
    "Verif.Utils.C16_out_of_range",
    "Verif.Utils.C16_nan",
    "Verif.Utils.C16_idempotent",
    "Verif.Utils.C16_monotone",
    "Verif.Utils.C16_crossed"
   ],
   "note": "All grids, any ordered number type; limits may be infinite; NaN cells explicit; behaviour with crossed limits also characterised (C16_crossed)."
  },
  {
   "property": "C17",
   "status": "proved",
   "theorems": [
    "Verif.Calendar.C17_water_year",
    "Verif.Calendar.C17_october_first",
    "Verif.Calendar.C17_elapsed",
    "Verif.Calendar.C17_monotone",
    "Verif.Calendar.C17_range"
   ],
   "note": "All dates of the proleptic Gregorian calendar."
  },
  {
   "property": "C18",
   "status": "proved",
   "theorems": [
    "Verif.Calendar.C18_month_lengths",
    "Verif.Calendar.C18_domain",
    "Verif.Calendar.C18_first_day",
    "Verif.Calendar.C18_next_day",
    "Verif.Calendar.C18_range",
    "Verif.Calendar.C18_strictly_increasing",
    "Verif.Calendar.C18_bijective"
   ],
   "note": "All years and days; the error branch is explicit."
  },
  {
   "property": "C19",
   "status": "proved",
   "theorems": [
    "Verif.Calendar.C19_complete",
    "Verif.Calendar.C19_regular",
    "Verif.Calendar.C19_starts",
    "Verif.Calendar.C19_length"
   ],
   "note": "All start/end/step."
  },
  {
   "property": "C20",
   "status": "proved",
   "theorems": [
    "Verif.Utils.C20_groups_sound",
    "Verif.Utils.C20_groups_complete",
    "Verif.Utils.C20_none_iff",
    "Verif.Utils.C20_positions_once"
   ],
   "note": "All station tables."
  },
  {
   "property": "C21",
   "status": "proved",
   "theorems": [
    "Verif.Utils.C21_weights_sum",
    "Verif.Utils.C21_affine_exact",
    "Verif.Utils.C21_bounded",
    "Verif.Utils.C21_outside_fill",
    "Verif.Utils.C21_inside_value"
   ],
   "note": "Any dimension; the triangulation's transform is assumed to be the inverse of the edge matrix of the simplex (IsTransform), nothing is assumed about which simplex qhull returns."
  },
  {
   "property": "C22",
   "status": "partial",
   "theorems": [
    "Verif.Utils.C22_default_all_partial",
    "Verif.Utils.C22_list_ignored_fails",
    "Verif.Utils.C22_fails",
    "Verif.Utils.C22_repaired_partial"
   ],
   "note": "False: the configured list is replaced by the None returned by list.sort(), so every station is used (C22_list_ignored_fails). Proved: the unset case, and correctness of the selection once the list is not lost."
  },
  {
   "property": "C23",
   "status": "proved",
   "theorems": [
    "Verif.Storms.C23_timestamps",
    "Verif.Storms.C23_ordered_disjoint",
    "Verif.Storms.C23_cover",
    "Verif.Storms.C23_mass",
    "Verif.Storms.C23_count",
    "Verif.Storms.C23_none_iff"
   ],
   "note": "All rectangular tables (NaN cells included), thresholds and step limits. Time stamps are row numbers; C23_timestamps shows stamps are only copied."
  },
  {
   "property": "C24",
   "status": "proved",
   "theorems": [
    "Verif.Storms.C24_same_storm_iff",
    "Verif.Storms.C24_end"
   ],
   "note": "Exact characterisation: same storm iff no dry spell of n steps between; also the exact end of each storm."
  },
  {
   "property": "C25",
   "status": "partial",
   "theorems": [
    "Verif.Storms.C25_outside_zero",
    "Verif.Storms.C25_unselected_nan",
    "Verif.Storms.C25_total_iff",
    "Verif.Storms.C25_proportional",
    "Verif.Storms.C25_total_fails",
    "Verif.Storms.C25_conserved_partial"
   ],
   "note": "False: a station whose whole precipitation falls outside the storms loses it (C25_total_fails). C25_total_iff characterises exactly when the total is kept; removal outside storms and proportionality hold in full."
  },
  {
   "property": "C26",
   "status": "proved",
   "theorems": [
    "Verif.Storms.C26_ordered_disjoint",
    "Verif.Storms.C26_cover",
    "Verif.Storms.C26_same_storm_iff",
    "Verif.Storms.C26_image_test"
   ],
   "note": "All sequences of images, initial counters and step limits."
  },
  {
   "property": "C27",
   "status": "partial",
   "theorems": [
    "Verif.Storms.C27_step_partial",
    "Verif.Storms.C27_snowing_cell_partial",
    "Verif.Storms.C27_other_cell_partial",
    "Verif.Storms.C27_no_snow",
    "Verif.Storms.C27_counts_steps",
    "Verif.Storms.C27_sticky_fails",
    "Verif.Storms.C27_time_step_fails",
    "Verif.Storms.C27_accumulation_fails"
   ],
   "note": "False: the clock advances by 1 per step whatever the step length, precipitation is not accumulated, and a cell keeps being reset while it snows elsewhere. Proved: exact step behaviour and step counting."
  },
  {
   "property": "C28",
   "status": "proved",
   "theorems": [
    "Verif.Storms.C28_no_storm",
    "Verif.Storms.C28_since_last_storm",
    "Verif.Storms.C28_nonneg",
    "Verif.Storms.C28_local"
   ],
   "note": "All runs."
  },
  {
   "property": "C29",
   "status": "proved",
   "theorems": [
    "Verif.Nasde.C29_one_class",
    "Verif.Nasde.C29_documented",
    "Verif.Nasde.C29_dry",
    "Verif.Nasde.C29_range",
    "Verif.Nasde.C29_monotone",
    "Verif.Nasde.C29_nan"
   ],
   "note": "All images, NaN included."
  },
  {
   "property": "C30",
   "status": "proved",
   "theorems": [
    "Verif.Nasde.C30_ends",
    "Verif.Nasde.C30_antitone",
    "Verif.Nasde.C30_range",
    "Verif.Nasde.C30_no_jumps",
    "Verif.Nasde.C30_tmax_needed"
   ],
   "note": "All temperatures and thresholds."
  },
  {
   "property": "C31",
   "status": "partial",
   "theorems": [
    "Verif.Nasde.C31_temperatures",
    "Verif.Nasde.C31_bounds_partial",
    "Verif.Nasde.C31_monotone",
    "Verif.Nasde.C31_no_check_fails",
    "Verif.Nasde.C31_dry_cells_fails",
    "Verif.Nasde.C31_fails"
   ],
   "note": "False in two places: with check_temps=False the density is never bound, and dry cells get a density of at least 50 (C31_fails). Bounds and monotonicity proved for the checked path."
  },
  {
   "property": "C32",
   "status": "partial",
   "theorems": [
    "Verif.Nasde.C32_swe",
    "Verif.Nasde.C32_density_partial",
    "Verif.Nasde.C32_no_snow",
    "Verif.Nasde.C32_mixture_bound",
    "Verif.Nasde.C32_shared_array_fails",
    "Verif.Nasde.C32_fails"
   ],
   "note": "False: seven names share one array, so the compaction uses the value written by the later formula (C32_fails). The SWE identity and the bounds that hold are proved."
  },
  {
   "property": "C33",
   "status": "partial",
   "theorems": [
    "Verif.Precip.C33_unknown_rejected",
    "Verif.Precip.C33_ratio_positive",
    "Verif.Precip.C33_ratio_antitone",
    "Verif.Precip.C33_increase_partial",
    "Verif.Precip.C33_calm_fails",
    "Verif.Precip.C33_fails",
    "Verif.Precip.C33_documented",
    "Verif.Precip.C33_missing_unchanged",
    "Verif.Precip.C33_all_stations"
   ],
   "note": "False in calm air: the fitted curves exceed 100 percent and reduce the reading (C33_fails). Positivity, monotonicity, rejection of unknown gauges and unchanged stations hold in full; correction never reduces for wind of 0.5 m/s and more."
  },
  {
   "property": "C34",
   "status": "partial",
   "theorems": [
    "Verif.Precip.C34_warm_unchanged",
    "Verif.Precip.C34_drift_bounds",
    "Verif.Precip.C34_drift_shape",
    "Verif.Precip.C34_scour_bounds",
    "Verif.Precip.C34_nonneg",
    "Verif.Precip.C34_assigned",
    "Verif.Precip.C34_nan_fails",
    "Verif.Precip.C34_local",
    "Verif.Precip.C34_cubic_offset",
    "Verif.Precip.C34_cubic_fails"
   ],
   "note": "Two failures: the cubic uses a in place of d (C34_cubic_fails) and NaN cells get 0 (C34_nan_fails). Bounds, warm cells, sign and locality hold in full. C34_drift_shape: value in calm air, ratio between two winds, more wind more drift above 1.654 m/s."
  },
  {
   "property": "C35",
   "status": "partial",
   "theorems": [
    "Verif.Precip.C35_refreshed_partial",
    "Verif.Precip.C35_dry_step_partial",
    "Verif.Precip.C35_wet_step_partial",
    "Verif.Precip.C35_stale_fails",
    "Verif.Precip.C35_fails"
   ],
   "note": "False: with station data, a model other than marks2017 and no undercatch correction nothing is ever published (C35_stale_fails, for every run). All other configurations proved."
  },
  {
   "property": "C36",
   "status": "proved",
   "theorems": [
    "Verif.Albedo.C36_declines",
    "Verif.Albedo.C36_physical",
    "Verif.Albedo.C36_sun_raises",
    "Verif.Albedo.C36_published_in_limits",
    "Verif.Albedo.C36_own_dictionary"
   ],
   "note": "Well defined and non-increasing in storm age, strictly inside (0,1] / (0,1) for accepted parameters, at least the base (sun-down) value with sun on the terrain, published values within configured limits."
  },
  {
   "property": "C37",
   "status": "partial",
   "theorems": [
    "Verif.Albedo.C37_checks_partial",
    "Verif.Albedo.C37_dirt_fails",
    "Verif.Albedo.C37_fails"
   ],
   "note": "Config checks modelled branch by branch. The dirt check can never be true (C37_dirt_fails); the other checks hold."
  },
  {
   "property": "C38",
   "status": "partial",
   "theorems": [
    "Verif.Albedo.C38_value_partial",
    "Verif.Albedo.C38_shape",
    "Verif.Albedo.C38_before",
    "Verif.Albedo.C38_monotone_partial",
    "Verif.Albedo.C38_zero_class_fails",
    "Verif.Albedo.C38_fails"
   ],
   "note": "Value, shape and monotonicity hold for positive class maxima; a zero maximum raises ZeroDivisionError (C38_zero_class_fails)."
  },
  {
   "property": "C39",
   "status": "proved",
   "theorems": [
    "Verif.Albedo.C39_weighted_mean",
    "Verif.Albedo.C39_toward_litter",
    "Verif.Albedo.C39_limit"
   ],
   "note": "Weighted mean, movement toward the litter albedo and the limit hold for all inputs."
  },
  {
   "property": "C40",
   "status": "proved",
   "theorems": [
    "Verif.Vapor.C40_below_air_temp",
    "Verif.Vapor.C40_nan",
    "Verif.Vapor.C40_precip_temp"
   ],
   "note": "Dew point limiting holds for every cell, NaN cells included."
  },
  {
   "property": "C41",
   "status": "partial",
   "theorems": [
    "Verif.Vapor.C41_positive",
    "Verif.Vapor.C41_ice_increasing",
    "Verif.Vapor.C41_water_increasing",
    "Verif.Vapor.C41_increasing",
    "Verif.Vapor.C41_rejected_partial",
    "Verif.Vapor.C41_zero_kelvin_fails"
   ],
   "note": "Positivity and monotonicity (across the jump at freezing, up to 1000 K) hold; the Python wrapper accepts 0 K (C41_zero_kelvin_fails)."
  },
  {
   "property": "C42",
   "status": "partial",
   "theorems": [
    "Verif.Vapor.C42_conversion_partial",
    "Verif.Vapor.C42_order_partial",
    "Verif.Vapor.C42_dry_first_fails",
    "Verif.Vapor.C42_saturated_first_fails",
    "Verif.Vapor.C42_fails"
   ],
   "note": "The unit is decided by the first element only, so mixed arrays convert wrongly (the two _fails theorems); conversion and order hold once the unit is right."
  },
  {
   "property": "C43",
   "status": "partial",
   "theorems": [
    "Verif.Dewpoint.C43_converges",
    "Verif.Dewpoint.C43_found",
    "Verif.Dewpoint.C43_dew_point_partial",
    "Verif.Dewpoint.C43_range_partial",
    "Verif.Dewpoint.C43_better_end",
    "Verif.Dewpoint.C43_interpolation",
    "Verif.Dewpoint.C43_bracket_kept",
    "Verif.Dewpoint.C43_returns_at_bracket",
    "Verif.Dewpoint.C43_zerobr",
    "Verif.Dewpoint.C43_lower_found",
    "Verif.Dewpoint.C43_bracket_found_partial",
    "Verif.Dewpoint.C43_solution_partial",
    "Verif.Dewpoint.C43_early_fails",
    "Verif.Dewpoint.C43_fails",
    "Verif.Dewpoint.C43_zero_never_ends_fails"
   ],
   "note": "Brent bracket invariant for every run; a bracket is found for 0<e<=1.5 sea-level pressure; the loop never needs more rounds than maxfun, for any function (C43_converges, Brent's worst-case bound), so the solver returns a value (C43_found), which from 20 Pa up, the default lower limit, is the dew point to within twice the tolerance (C43_range_partial). Below that range the full claim is false: early acceptance compares a pressure with a temperature tolerance (C43_early_fails); e=0 never ends. Tolerance at least 1e-4. C43_better_end: of the two ends of the bracket the better one is returned. C43_interpolation: a step that is not a bisection goes to the root of the secant or of the inverse parabola."
  },
  {
   "property": "C44",
   "status": "partial",
   "theorems": [
    "Verif.WetBulb.C44_returns_partial",
    "Verif.WetBulb.C44_at_most_ten",
    "Verif.WetBulb.C44_converged_partial",
    "Verif.WetBulb.C44_upward_fails",
    "Verif.WetBulb.C44_fails",
    "Verif.WetBulb.C44_saturated",
    "Verif.WetBulb.C44_first_round_partial",
    "Verif.WetBulb.C44_latent",
    "Verif.WetBulb.C44_large_tolerance"
   ],
   "note": "At most ten rounds, and the signed last correction is within the tolerance. C44_returns_partial: for air up to 320.2 K, dew points from 199 K up, at least 50 kPa and tolerances from 7 mK to 1 K the loop returns within ten rounds, the psychrometric equation changes sign within max(tolerance, |last correction|) of the result, and the result lies between dew point and air temperature up to the same distance. The test is not on the absolute value, so upward steps are always accepted (C44_upward_fails)."
  },
  {
   "property": "C45",
   "status": "partial",
   "theorems": [
    "Verif.Solar.C45_nonneg_partial",
    "Verif.Solar.C45_net_partial",
    "Verif.Solar.C45_fails",
    "Verif.Solar.C45_step_fails",
    "Verif.Solar.C45_stages",
    "Verif.Solar.C45_terrain"
   ],
   "note": "Non-negativity proved for strong scattering (omega(4-3g) > 1) and non-resonant sun angles. The balance itself is false: toporad's beam image already contains the diffuse one, so calc_net adds diffuse radiation twice (C45_net_partial gives the exact value, C45_step_fails the excess of a whole step)."
  },
  {
   "property": "C46",
   "status": "partial",
   "theorems": [
    "Verif.Solar.C46_night",
    "Verif.Solar.C46_night_run",
    "Verif.Solar.C46_day_partial",
    "Verif.Solar.C46_correction_off_fails",
    "Verif.Solar.C46_fails"
   ],
   "note": "Night steps: every output is zero in every run. With the sun up everything is computed only when both corrections are on (C46_day_partial); with a correction off the corrected variables keep whatever the last night left, or do not exist (C46_correction_off_fails)."
  },
  {
   "property": "C47",
   "status": "proved",
   "theorems": [
    "Verif.Solar.C47_total",
    "Verif.Solar.C47_monotone",
    "Verif.Solar.C47_diffuse"
   ],
   "note": "All cloud factors in [0,1] and radiation values, both cutoffs."
  },
  {
   "property": "C48",
   "status": "proved",
   "theorems": [
    "Verif.Solar.C48_beam_contraction",
    "Verif.Solar.C48_beam_decreasing",
    "Verif.Solar.C48_unchanged",
    "Verif.Solar.C48_diffuse",
    "Verif.Solar.C48_veg_correct"
   ],
   "note": "All sun angles, heights, extinctions and transmissivities; also for the whole veg_correct step."
  },
  {
   "property": "C49",
   "status": "proved",
   "theorems": [
    "Verif.Twostream.C49_gammas",
    "Verif.Twostream.C49_no_value_error",
    "Verif.Twostream.C49_exponent_positive",
    "Verif.Twostream.C49_direct_range",
    "Verif.Twostream.C49_direct_decreasing",
    "Verif.Twostream.C49_irradiance"
   ],
   "note": "All parameters in the stated ranges; the series beta_0 is modelled with its loop and its no-convergence branch."
  },
  {
   "property": "C50",
   "status": "proved",
   "theorems": [
    "Verif.Thermal.C50_canopy_low",
    "Verif.Thermal.C50_canopy_between",
    "Verif.Thermal.C50_terrain_between",
    "Verif.Thermal.C50_step"
   ],
   "note": "All values; also for the images a step publishes."
  },
  {
   "property": "C51",
   "status": "partial",
   "theorems": [
    "Verif.Thermal.C51_unsworth_crawford",
    "Verif.Thermal.C51_above_black_body_fails",
    "Verif.Thermal.C51_garen_partial",
    "Verif.Thermal.C51_garen_fails",
    "Verif.Thermal.C51_kimball_partial",
    "Verif.Thermal.C51_kimball_constant_fails",
    "Verif.Thermal.C51_kimball_clear_fails",
    "Verif.Thermal.C51_kimball_reduces_fails",
    "Verif.Thermal.C51_fails"
   ],
   "note": "Full for Unsworth and Crawford (clear-sky value at most black-body emission; otherwise C51_above_black_body_fails). Garen is 0.3 percent low without cloud; Kimball ignores the cloud factor, corrects the clear sky, and reduces radiation in warm humid air."
  },
  {
   "property": "C52",
   "status": "partial",
   "theorems": [
    "Verif.Thermal.C52_celsius_partial",
    "Verif.Thermal.C52_terrain_fails",
    "Verif.Thermal.C52_fails"
   ],
   "note": "False: the module uses degrees Celsius to the fourth power, so below zero the terrain part falls with rising temperature; C52_celsius_partial says exactly when the claim holds."
  },
  {
   "property": "C53",
   "status": "partial",
   "theorems": [
    "Verif.Idw.C53_defined",
    "Verif.Idw.C53_formula_partial",
    "Verif.Idw.C53_between_partial",
    "Verif.Idw.C53_constant_partial",
    "Verif.Idw.C53_ignores_missing",
    "Verif.Idw.C53_order_partial",
    "Verif.Idw.C53_affine_partial",
    "Verif.Idw.C53_own_location_fails",
    "Verif.Idw.C53_fails"
   ],
   "note": "Exact arithmetic with infinities and NaN explicit. Defined, between the extremes, order and affine claims hold for cells away from every station; at a station's own cell the zero distance is replaced by the minimum, which is zero, and the result is NaN."
  },
  {
   "property": "C54",
   "status": "proved",
   "theorems": [
    "Verif.Idw.C54_trend_sign",
    "Verif.Idw.C54_no_trend_plain",
    "Verif.Idw.C54_affine_exact",
    "Verif.Idw.C54_affine_exact_kriging",
    "Verif.Idw.C54_kriging_constant",
    "Verif.Idw.C54_kriging_between"
   ],
   "note": "np.polyfit is a parameter constrained to be a least-squares line; closedForm_least shows the constraint can be met. zeros=None as in every call of the code."
  },
  {
   "property": "C55",
   "status": "proved",
   "theorems": [
    "Verif.Krige.C55_cache"
   ],
   "note": "Sequence of calculate calls on one object equals recomputation from scratch, for any gaps."
  },
  {
   "property": "C56",
   "status": "partial",
   "theorems": [
    "Verif.Krige.C56_terminates",
    "Verif.Krige.C56_equations",
    "Verif.Krige.C56_sum",
    "Verif.Krige.C56_nonneg_partial",
    "Verif.Krige.C56_order",
    "Verif.Krige.C56_regular",
    "Verif.Krige.C56_own_cell",
    "Verif.Krige.C56_colocated_fails",
    "Verif.Krige.C56_negative_fails",
    "Verif.Krige.C56_fails",
    "Verif.Krige.C56_distinct_partial",
    "Verif.Krige.C56_exact_at_station"
   ],
   "note": "Termination, equations, sum to one, uniqueness, elimination order and exactness at a station are proved; stations at different places never stop the process (Euclidean distances are of strictly negative type). Fails: a negative weight is kept when the station is not above sea level, and two stations at one place end the process with exit(0)."
  },
  {
   "property": "C57",
   "status": "partial",
   "theorems": [
    "Verif.Lu.C57_singular",
    "Verif.Lu.C57_solves_partial",
    "Verif.Lu.C57_determined_partial",
    "Verif.Lu.C57_negative_fails",
    "Verif.Lu.C57_fails"
   ],
   "note": "Partial: solves for non-negative right-hand sides (the kriging case) and detects singular matrices exactly. Fails for negative right-hand sides because of the test sum > 0.0."
  },
  {
   "property": "C58",
   "status": "proved",
   "theorems": [
    "Verif.Wind.C58_range",
    "Verif.Wind.C58_components",
    "Verif.Wind.C58_roundtrip",
    "Verif.Wind.C58_between"
   ],
   "note": "Range, components, round trip, and: directions within a half circle average to a direction between them. Exact arithmetic, so a float result of exactly 360.0 by rounding is outside the model."
  },
  {
   "property": "C59",
   "status": "partial",
   "theorems": [
    "Verif.Wind.C59_nearest",
    "Verif.Wind.C59_lookup",
    "Verif.Wind.C59_station_partial",
    "Verif.Wind.C59_station_fails"
   ],
   "note": "Cells: nearest direction of the library and successful look-up for every number of directions. Stations agree when the step is a whole number; fails for e.g. 48 directions, where int() cuts 7.5 to 7."
  },
  {
   "property": "C60",
   "status": "partial",
   "theorems": [
    "Verif.Wind.C60_documented_partial",
    "Verif.Wind.C60_positive_partial",
    "Verif.Wind.C60_gaps_fails",
    "Verif.Wind.C60_fails",
    "Verif.Wind.C60_limits"
   ],
   "note": "Partial: documented factor except at the four class boundaries, where the wind is zero."
  },
  {
   "property": "C61",
   "status": "partial",
   "theorems": [
    "Verif.Wind.C61_own_partial",
    "Verif.Wind.C61_order_fails",
    "Verif.Wind.C61_slope",
    "Verif.Wind.C61_fails"
   ],
   "note": "Partial: own data without a list of peaks or when all stations are in it. Fails: with a list, other stations reuse the value of the station before them, or stop the program."
  },
  {
   "property": "C62",
   "status": "partial",
   "theorems": [
    "Verif.Bres.C62_walk",
    "Verif.Bres.C62_line_partial",
    "Verif.Bres.C62_reaches_partial",
    "Verif.Bres.C62_cut_fails",
    "Verif.Bres.C62_fails"
   ],
   "note": "The walker's invariant (error term equals the scaled distance from the ideal line) is proved for every start and end that fit in a C short: each cell is within half a cell of the ideal line, each step moves one cell, the end is reached after exactly max(|dx|,|dy|) steps. Partial: find_line stores at most 500 cells, so longer lines never reach their end (C62_cut_fails)."
  },
  {
   "property": "C63",
   "status": "partial",
   "theorems": [
    "Verif.Bres.C63_line_partial",
    "Verif.Bres.C63_empty_fails",
    "Verif.Bres.C63_fails"
   ],
   "note": "The python walker: the same specification is proved for every pair of cells that is not steep with mixed orientation; those pairs give an empty path (C63_empty_fails is an iff)."
  },
  {
   "property": "C64",
   "status": "partial",
   "theorems": [
    "Verif.Horizon.C64_attained",
    "Verif.Horizon.C64_bound_partial",
    "Verif.Horizon.C64_exact_partial",
    "Verif.Horizon.C64_python_partial",
    "Verif.Horizon.C64_height_fails",
    "Verif.Horizon.C64_bent_fails",
    "Verif.Horizon.C64_fails",
    "Verif.Horizon.C64_python_fails",
    "Verif.Horizon.C64_row_partial",
    "Verif.Tbreak.C64_ray_partial"
   ],
   "note": "C64_attained: the search ends and reports the slope to one of the points. C64_bound_partial / C64_exact_partial / C64_python_partial: on straight profiles it is the maximum up to instrument height over spacing, exactly the maximum with the instrument on the ground; C64_row_partial carries this through the line walker and the arrays for rows. C64_ray_partial: the same for all rows, columns and diagonals and any height. The full claim is false: C64_height_fails (instrument above ground), C64_bent_fails and C64_python_fails (cells of an oblique line)."
  },
  {
   "property": "C65",
   "status": "partial",
   "theorems": [
    "Verif.Window.C65_sound",
    "Verif.Window.C65_window_partial",
    "Verif.Window.C65_north_fails",
    "Verif.Window.C65_fails",
    "Verif.Window.C65_misaligned_fails",
    "Verif.Window.C65_mean_partial",
    "Verif.Window.C65_nan_fails"
   ],
   "note": "C65_window_partial: for windows whose half is a multiple of the increment, the directions taken are exactly those within half a window around the circle, except direction 0 seen from windows reaching 360; C65_mean_partial carries this to the averages written. Negations: C65_north_fails (direction 0 missed), C65_misaligned_fails / C65_nan_fails (half window not a multiple of the increment: every average is NaN)."
  },
  {
   "property": "C66",
   "status": "partial",
   "theorems": [
    "Verif.Ninja.C66_scale",
    "Verif.Ninja.C66_roughness",
    "Verif.Ninja.C66_interpolate",
    "Verif.Ninja.C66_same_partial",
    "Verif.Ninja.C66_edge_fails",
    "Verif.Ninja.C66_fails"
   ],
   "note": "The log-law factor is positive for every vegetation height, NaN included; antitone in vegetation height; 1 at the simulation's roughness; interpolated speeds stay between the corner speeds. Partial: filling the edges extrapolates linearly and can give negative speeds (C66_edge_fails)."
  },
  {
   "property": "C67",
   "status": "proved",
   "theorems": [
    "Verif.Sun.C67_cosine",
    "Verif.Sun.C67_digits",
    "Verif.Sun.C67_position"
   ],
   "note": "rotate returns a value in [-1,1] for all inputs it accepts; it is the scalar product of sun and zenith and the azimuth is counted from south towards east. Exact real arithmetic."
  },
  {
   "property": "C68",
   "status": "partial",
   "theorems": [
    "Verif.Sun.C68_partial",
    "Verif.Sun.C68_fails",
    "Verif.Sun.C68_beyond_pole"
   ],
   "note": "Fails for latitudes between 90 and 360 degrees: M_PI_2 is 2*pi. Proved: all valid positions accepted, and the exact set of rejected ones."
  },
  {
   "property": "C69",
   "status": "proved",
   "theorems": [
    "Verif.Sun.C69_unique",
    "Verif.Sun.C69_contract",
    "Verif.Sun.C69_terminates",
    "Verif.Sun.C69_accuracy",
    "Verif.Sun.C69_zero",
    "Verif.Sun.C69_every_date"
   ],
   "note": "Unique solution, contraction, termination, accuracy, and every date of the years 1 to 9999 has a nonzero anomaly (3-adic argument), so the ephemeris has a value."
  },
  {
   "property": "C70",
   "status": "partial",
   "theorems": [
    "Verif.Topo.C70_partial",
    "Verif.Topo.C70_stale",
    "Verif.Topo.C70_fails"
   ],
   "note": "A missing variable silently takes the data of the image before it; only a missing dem is an error. Proved for files with all variables, and exactly what happens otherwise."
  },
  {
   "property": "C71",
   "status": "proved",
   "theorems": [
    "Verif.Topo.C71_nearest",
    "Verif.Topo.C71_half_cell",
    "Verif.Topo.C71_missing"
   ],
   "note": "argmin of the distances along one axis. A station without a coordinate (NaN) gets pixel 0."
  },
  {
   "property": "C72",
   "status": "proved",
   "theorems": [
    "Verif.Grid.C72_consecutive",
    "Verif.Grid.C72_sum",
    "Verif.Grid.C72_nonneg"
   ],
   "note": "Running totals to hourly values, for series of any length with missing values."
  },
  {
   "property": "C73",
   "status": "partial",
   "theorems": [
    "Verif.Grid.C73_partial",
    "Verif.Grid.C73_fails",
    "Verif.Grid.C73_diagonal",
    "Verif.Grid.C73_mirror"
   ],
   "note": "The direction is measured counterclockwise from east, the distribution step takes it as an azimuth: the components are exchanged. Proved: exactly this exchange; right for diagonal winds only."
  },
  {
   "property": "C74",
   "status": "partial",
   "theorems": [
    "Verif.Grid.C74_day",
    "Verif.Grid.C74_night",
    "Verif.Grid.C74_carry",
    "Verif.Grid.C74_range",
    "Verif.Grid.C74_latest",
    "Verif.Grid.C74_first_night",
    "Verif.Grid.C74_steps_range",
    "Verif.Grid.C74_fails"
   ],
   "note": "Radiation ratio to cloud factor, whole series and single time steps by induction over the steps. One missing cell in the first step makes all cells clear sky."
  },
  {
   "property": "C75",
   "status": "partial",
   "theorems": [
    "Verif.Hru.C75_file",
    "Verif.Hru.C75_partial",
    "Verif.Hru.C75_values",
    "Verif.Hru.C75_date",
    "Verif.Hru.C75_fails",
    "Verif.Hru.C75_frequency_fails",
    "Verif.Hru.C75_prms",
    "Verif.Hru.C75_prms_fails"
   ],
   "note": "The row counter is shared by all variables. Exact content of every file for all numbers of variables and frequencies; the claim holds for one variable written at each step."
  },
  {
   "property": "C76",
   "status": "proved",
   "theorems": [
    "Verif.Csv.C76_selection",
    "Verif.Csv.C76_empty",
    "Verif.Csv.C76_all",
    "Verif.Csv.C76_metadata",
    "Verif.Csv.C76_unchecked"
   ],
   "note": "Through the configuration (names converted to capitals). The time index is taken to be increasing. Names given to the loader directly in small letters are not found."
  },
  {
   "property": "C77",
   "status": "partial",
   "theorems": [
    "Verif.Beta.C77_default",
    "Verif.Twostream.C77_physical_partial",
    "Verif.Twostream.C77_resonance_fails",
    "Verif.Twostream.C77_no_backscatter_fails",
    "Verif.Twostream.C77_diffuse_fails",
    "Verif.Twostream.C77_fails"
   ],
   "note": "Proved for strong scattering (omega(4-3g) > 1) at non-resonant sun angles, given that the series beta_0 converges (C77_physical_partial); without these two hypotheses for asymmetries up to 1/3 and single-scattering albedos from 3/4 up to one, among them the defaults 0.3 and 0.85 (C77_default, in BetaProps). False at resonance (division by zero), at vanishing backward coefficient, and for weak scattering over bright ground, where the negative diffuse flux passes the assertions."
  },
  {
   "property": "C78",
   "status": "partial",
   "theorems": [
    "Verif.Thermal.C78_marks",
    "Verif.Thermal.C78_marks_dew",
    "Verif.Thermal.C78_prata",
    "Verif.Thermal.C78_angstrom",
    "Verif.Thermal.C78_angstrom_shape",
    "Verif.Thermal.C78_prata_shape",
    "Verif.Thermal.C78_dilley_shape",
    "Verif.Thermal.C78_step_partial",
    "Verif.Thermal.C78_dilley_fails",
    "Verif.Thermal.C78_fails"
   ],
   "note": "Marks, Prata and Angstrom for all inputs; Dilley exceeds black-body emission below -90 C. C78_angstrom_shape, C78_prata_shape, C78_dilley_shape: the values of a dry sky and how the radiation goes with vapor pressure and temperature."
  },
  {
   "property": "C79",
   "status": "partial",
   "theorems": [
    "Verif.Thermal.C79_agree",
    "Verif.Thermal.C79_bad",
    "Verif.Thermal.C79_zero_kelvin_fails"
   ],
   "note": "Same value wherever both temperatures and the sea-level temperature are above 0 K; otherwise exit versus NaN, except for a dew point of exactly 0 K."
  },
  {
   "property": "C80",
   "status": "partial",
   "theorems": [
    "Verif.Thermal.C80_options_partial",
    "Verif.Thermal.C80_published",
    "Verif.Thermal.C80_no_terrain_fails",
    "Verif.Thermal.C80_fails"
   ],
   "note": "All configurations except marks1979 without terrain correction, which always fails."
  },
  {
   "property": "C81",
   "status": "proved",
   "theorems": [
    "Verif.Nasde.C81_known",
    "Verif.Nasde.C81_fraction",
    "Verif.Nasde.C81_density"
   ],
   "note": "Dispatch of phase_and_density on the configured model name, with the range of percent snow and the density each model gives."
  },
  {
   "property": "C82",
   "status": "partial",
   "theorems": [
    "Verif.Wind.C82_within_class_partial",
    "Verif.Wind.C82_boundary_fails"
   ],
   "note": "Partial: within each slope class. Fails across 21.3 degrees."
  },
  {
   "property": "C83",
   "status": "partial",
   "theorems": [
    "Verif.Wind.C83_inverse_partial",
    "Verif.Wind.C83_steep_fails"
   ],
   "note": "Partial: up to 30 degrees. Fails beyond, where stations and cells use different constants."
  },
  {
   "property": "C84",
   "status": "proved",
   "theorems": [
    "Verif.Wind.C84_vegetation"
   ],
   "note": "Proved for distinct classes, as the keys of a dictionary are."
  },
  {
   "property": "C85",
   "status": "proved",
   "theorems": [
    "Verif.Bres.C85_profile"
   ],
   "note": "Arrays filled by calc_maxus hold exactly the part of the line inside the grid, for all end cells (also where the short variables of the line walker wrap around); no uninitialised memory is read, all reads are in bounds."
  },
  {
   "property": "C86",
   "status": "partial",
   "theorems": [
    "Verif.Horizon.C86_own_horizon_partial",
    "Verif.Horizon.C86_ground_fails",
    "Verif.Horizon.C86_kept"
   ],
   "note": "Zero for instrument above the ground (the division gives -inf, -90 degrees, replaced by 0); NaN with height 0 (0/0), C86_ground_fails. C86_kept: values of slopes above -57 are not replaced."
  },
  {
   "property": "C87",
   "status": "partial",
   "theorems": [
    "Verif.Window.C87_far_end",
    "Verif.Window.C87_rows_north_fails"
   ],
   "note": "The far end is within half a cell of the point dmax away in the wind's azimuth for grids whose rows go south; with rows going north the search is mirrored (C87_rows_north_fails)."
  },
  {
   "property": "C88",
   "status": "partial",
   "theorems": [
    "Verif.Ninja.C88_complete",
    "Verif.Ninja.C88_succeeds",
    "Verif.Ninja.C88_plane",
    "Verif.Ninja.C88_right_edge_fails"
   ],
   "note": "Filling removes every NaN, leaves data alone, continues planes, and succeeds when NaN are along the left and bottom edges. With NaN elsewhere in the first row it raises (C88_right_edge_fails)."
  },
  {
   "property": "C89",
   "status": "proved",
   "theorems": [
    "Verif.Ninja.C89_limited"
   ],
   "note": "The array is limited in place, so the thread's reference to the wind model's array sees the limits."
  },
  {
   "property": "C90",
   "status": "proved",
   "theorems": [
    "Verif.Sun.C90_hour_angle",
    "Verif.Sun.C90_defined"
   ],
   "note": "For every valid date 1900..9999 and every place no check of the sun position fails; hour angle modulo full turns."
  },
  {
   "property": "C91",
   "status": "proved",
   "theorems": [
    "Verif.Sun.C91_position",
    "Verif.Sun.C91_ellipse"
   ],
   "note": "Position on the ellipse and ellipse equation, everywhere except the aphelion itself (tangent undefined)."
  },
  {
   "property": "C92",
   "status": "proved",
   "theorems": [
    "Verif.Sun.C92_equatorial",
    "Verif.Sun.C92_autumn_equinox"
   ],
   "note": "Equatorial coordinates of the sun, everywhere except the solstices (tangent undefined) and the autumn equinox, where the model of the code gives 0 instead of 180 degrees (theorem C92_autumn_equinox)."
  },
  {
   "property": "C93",
   "status": "partial",
   "theorems": [
    "Verif.Sun.C93_partial",
    "Verif.Sun.C93_fails",
    "Verif.Sun.C93_after_2100",
    "Verif.Sun.C93_before_1898"
   ],
   "note": "Proved for 1900..2100; off by one from 2101 to 2200 and in 1897."
  },
  {
   "property": "C94",
   "status": "partial",
   "theorems": [
    "Verif.Sun.C94_sun_vector_partial",
    "Verif.Sun.C94_place"
   ],
   "note": "Years 1900 to 2100; the perturbation terms are only bounded, not compared with a reference; solstices, aphelion and autumn equinox excluded where the tangent is undefined."
  },
  {
   "property": "C95",
   "status": "proved",
   "theorems": [
    "Verif.Topo.C95_dx",
    "Verif.Topo.C95_even",
    "Verif.Topo.C95_center"
   ],
   "note": "Cell size from the axes and centre of the basin from the mask."
  },
  {
   "property": "C96",
   "status": "proved",
   "theorems": [
    "Verif.Hru.C96_mean",
    "Verif.Hru.C96_between",
    "Verif.Hru.C96_units",
    "Verif.Hru.C96_row"
   ],
   "note": "Mean over the cells of a unit, NaN left out, and the two unit conversions; output format (three digits) not modelled."
  },
  {
   "property": "C97",
   "status": "partial",
   "theorems": [
    "Verif.Csv.C97_single",
    "Verif.Csv.C97_wind",
    "Verif.Csv.C97_run",
    "Verif.Csv.C97_values",
    "Verif.Csv.C97_metadata",
    "Verif.Csv.C97_partial",
    "Verif.Csv.C97_fails"
   ],
   "note": "Prefilter of the tables and selection of a row. Wind models of their own class keep all stations of the metadata: a station without wind stops the run."
  },
  {
   "property": "C98",
   "status": "partial",
   "theorems": [
    "Verif.GridInterp.C98_mask_value",
    "Verif.GridInterp.C98_mask_affine",
    "Verif.GridInterp.C98_mask_rejected",
    "Verif.GridInterp.C98_mask_pixel",
    "Verif.GridInterp.C98_neighbours",
    "Verif.GridInterp.C98_local_partial",
    "Verif.GridInterp.C98_local_place_partial",
    "Verif.GridInterp.C98_local_affine_partial",
    "Verif.GridInterp.C98_nearest_fails",
    "Verif.GridInterp.C98_fails",
    "Verif.GridInterp.C98_same_place_fails"
   ],
   "note": "Proved for the mask variant; the local variant is partial: it fails with method nearest (no value is returned) and ignores the second of two cells at the same place."
  },
  {
   "property": "C99",
   "status": "partial",
   "theorems": [
    "Verif.GridInterp.C99_no_data",
    "Verif.GridInterp.C99_partial",
    "Verif.GridInterp.C99_rejected_plain",
    "Verif.GridInterp.C99_kriging_fails",
    "Verif.GridInterp.C99_dk_fails",
    "Verif.GridInterp.C99_fails"
   ],
   "note": "Proved for idw, grid, and kriging or dk where their code agrees; kriging ignores detrend_slope and dk always detrends."
  },
  {
   "property": "C100",
   "status": "proved",
   "theorems": [
    "Verif.Atmos.C100_reference",
    "Verif.Atmos.C100_falls",
    "Verif.Atmos.C100_ratio",
    "Verif.Atmos.C100_beam"
   ],
   "note": "Proved below 44.3 km."
  },
  {
   "property": "C101",
   "status": "partial",
   "theorems": [
    "Verif.Atmos.C101_partial",
    "Verif.Atmos.C101_below_fails",
    "Verif.Atmos.C101_fails",
    "Verif.Atmos.C101_cosine_partial",
    "Verif.Atmos.C101_cosine_fails",
    "Verif.Atmos.C101_cosine_gap_fails",
    "Verif.Atmos.C101_no_beam"
   ],
   "note": "Proved for horizons at or above the horizontal; the code takes the absolute value, so a cell that looks down is shaded."
  },
  {
   "property": "C102",
   "status": "proved",
   "theorems": [
    "Verif.Atmos.C102_day",
    "Verif.Atmos.C102_two",
    "Verif.Atmos.C102_inverse_square",
    "Verif.Atmos.C102_defined"
   ],
   "note": "Proved for the dates 1900 to 9999."
  },
  {
   "property": "C103",
   "status": "proved",
   "theorems": [
    "Verif.NcInput.C103_vectors",
    "Verif.NcInput.C103_grids",
    "Verif.NcInput.C103_shape",
    "Verif.NcInput.C103_flattened",
    "Verif.NcInput.C103_mixed",
    "Verif.NcInput.C103_names"
   ],
   "note": "Proved for one-dimensional and two-dimensional coordinates."
  },
  {
   "property": "C104",
   "status": "partial",
   "theorems": [
    "Verif.NcInput.C104_partial",
    "Verif.NcInput.C104_collapse_fails",
    "Verif.NcInput.C104_fails",
    "Verif.NcInput.C104_wrf_partial",
    "Verif.NcInput.C104_wrf_fails"
   ],
   "note": "Proved for whole numbers of units and for UTC; fractions of a unit are cut off and WRF runs in another time zone stop."
  },
  {
   "property": "C105",
   "status": "partial",
   "theorems": [
    "Verif.NcInput.C105_length",
    "Verif.NcInput.C105_partial",
    "Verif.NcInput.C105_serial",
    "Verif.NcInput.C105_night_fails",
    "Verif.NcInput.C105_dusk_fails",
    "Verif.NcInput.C105_fails"
   ],
   "note": "Proved for runs whose first two steps are in daylight; the first step of a threaded run is not checked and its memory starts at the second."
  },
  {
   "property": "C106",
   "status": "partial",
   "theorems": [
    "Verif.WindFill.C106_partial",
    "Verif.WindFill.C106_rejected",
    "Verif.WindFill.C106_others",
    "Verif.WindFill.C106_order_fails",
    "Verif.WindFill.C106_single_fails",
    "Verif.WindFill.C106_fails"
   ],
   "note": "Proved when the list of measurements and the station list have the same stations in the same order; otherwise the values go by position, a single value goes to all stations, and other lengths raise an exception. The limits of the wind are applied afterwards."
  },
  {
   "property": "C107",
   "status": "partial",
   "theorems": [
    "Verif.WindFill.C107_succeeds",
    "Verif.WindFill.C107_filled",
    "Verif.WindFill.C107_partial",
    "Verif.WindFill.C107_row_fails",
    "Verif.WindFill.C107_fails"
   ],
   "note": "Every missing cell gets a value between two values of the field whenever the field has a value. Between the neighbours in row-major order is proved for cells in rows without any value; np.interp is called with row indices only, so a missing cell in another row gets the last value of its row."
  },
  {
   "property": "C108",
   "status": "partial",
   "theorems": [
    "Verif.ConfigVeg.C108_wind",
    "Verif.ConfigVeg.C108_albedo",
    "Verif.ConfigVeg.C108_date",
    "Verif.ConfigVeg.C108_hardy",
    "Verif.ConfigVeg.C108_both_tables",
    "Verif.ConfigVeg.C108_precip_partial",
    "Verif.ConfigVeg.C108_precip_fails",
    "Verif.ConfigVeg.C108_fails"
   ],
   "note": "Proved for wind and albedo; the keys for precipitation are all stored under the word veg, so redistribution with a configured class stops with an exception."
  },
  {
   "property": "C109",
   "status": "partial",
   "theorems": [
    "Verif.Restart.C109_partial",
    "Verif.Restart.C109_fresh",
    "Verif.Restart.C109_stopped_fails",
    "Verif.Restart.C109_frequency_fails",
    "Verif.Restart.C109_susong_fails",
    "Verif.Restart.C109_fails"
   ],
   "note": "Proved for marks2017 with output at every step and a file that reaches the start date."
  },
  {
   "property": "C110",
   "status": "partial",
   "theorems": [
    "Verif.StormRun.C110_search",
    "Verif.StormRun.C110_runs",
    "Verif.StormRun.C110_partial",
    "Verif.StormRun.C110_warm_fails",
    "Verif.StormRun.C110_fails",
    "Verif.StormRun.C110_mass_fails"
   ],
   "note": "Search, numbering and absence of exceptions are proved in full; the total is proved for storms that start with a cell below 2 degrees. A storm that starts with rain keeps the total of an earlier storm. The mass leaves out steps below the threshold."
  },
  {
   "property": "C111",
   "status": "proved",
   "theorems": [
    "Verif.Omp.C111_loop",
    "Verif.Omp.C111_progress",
    "Verif.Omp.C111_ends",
    "Verif.Omp.C111_complete",
    "Verif.Omp.C111_deterministic",
    "Verif.Omp.C111_topotherm",
    "Verif.Omp.C111_iwbt",
    "Verif.Omp.C111_dewpt",
    "Verif.Omp.C111_maxus",
    "Verif.Omp.C111_krige"
   ],
   "note": "A statement (with the functions it calls) is one step; the five loops are instances of a theorem about loops whose bodies write private variables only. Runs are shown to end and to be extendable until they end."
  },
  {
   "property": "C112",
   "status": "partial",
   "theorems": [
    "Verif.NinjaDir.C112_with_speed",
    "Verif.NinjaDir.C112_range",
    "Verif.NinjaDir.C112_inside_partial",
    "Verif.NinjaDir.C112_constant",
    "Verif.NinjaDir.C112_extrapolated_fails",
    "Verif.NinjaDir.C112_fails"
   ],
   "note": "Inside the grid of the file the direction lies between the angles of the corners if these span less than half a turn and do not cross north. Negation: outside, components are extrapolated, north wind beside east wind gives a wind from the north-west. The triangulation is a parameter."
  },
  {
   "property": "C113",
   "status": "partial",
   "theorems": [
    "Verif.NinjaDir.C113_partial",
    "Verif.NinjaDir.C113_short_fails",
    "Verif.NinjaDir.C113_centre_fails"
   ],
   "note": "Heads of six lines in any order. Negation: without the optional NODATA_value line the first row is lost and all values move a row north; a head with the centre of the lower left cell is never read."
  },
  {
   "property": "C114",
   "status": "partial",
   "theorems": [
    "Verif.NinjaDir.C114_same_file",
    "Verif.NinjaDir.C114_name",
    "Verif.NinjaDir.C114_kinds",
    "Verif.NinjaDir.C114_partial",
    "Verif.NinjaDir.C114_summer_time_fails"
   ],
   "note": "C114_name: the folder carries the day of the clock of SMRF and the file the day, hour and minute of the clock of WindNinja. Which clocks give the same file is characterised exactly; the claim follows if the time zone of WindNinja has one offset. Negation: the hour repeated at the end of summer time reads the same file twice."
  },
  {
   "property": "C115",
   "status": "partial",
   "theorems": [
    "Verif.Setup.C115_partial",
    "Verif.Setup.C115_tight",
    "Verif.Setup.C115_defined",
    "Verif.Setup.C115_turned_fails"
   ],
   "note": "Holds where the latitude along a row and the longitude along a column vary by at most the buffer of 0.1 degrees. Negation: the box is made from two opposite corners, so a wide domain away from the meridian of the zone loses another corner."
  },
  {
   "property": "C116",
   "status": "partial",
   "theorems": [
    "Verif.Setup.C116_metadata_fails",
    "Verif.Setup.C116_times_fails",
    "Verif.Setup.C116_tables_partial",
    "Verif.Setup.C116_missing_fails",
    "Verif.Setup.C116_fails"
   ],
   "note": "The tables are complete (loading is idempotent, so a table written without offsets is loaded unchanged). Negation: the metadata are written without the name primary_id and reading them always fails; the times are written with offsets and tz_localize always fails; a run without one of the six variables cannot be copied."
  },
  {
   "property": "C117",
   "status": "partial",
   "theorems": [
    "Verif.Setup.C117_chosen",
    "Verif.Setup.C117_partial",
    "Verif.Setup.C117_fails"
   ],
   "note": "Exact characterisation of the choice. Negation of the last part: a directory without a configuration raises IndexError instead of the message."
  },
  {
   "property": "C118",
   "status": "partial",
   "theorems": [
    "Verif.KrigeMem.C118_defined_partial",
    "Verif.KrigeMem.C118_written_partial",
    "Verif.KrigeMem.C118_freed_partial",
    "Verif.KrigeMem.C118_same_partial",
    "Verif.KrigeMem.C118_sum_partial",
    "Verif.KrigeMem.C118_overflow_fails",
    "Verif.KrigeMem.C118_fails",
    "Verif.KrigeMem.C118_no_station_fails",
    "Verif.KrigeMem.C118_solver_fails"
   ],
   "note": "Proved for sizes whose products nsta*nsta and ngrid*nsta fit in an int. Negation: i*nsta overflows for larger grids (undefined behaviour). Without a station with data the process ends with exit. The solver alone is not safe (NaN in the first column leaves imax without a value); the row of ones of the kriging matrix makes it safe. Failing malloc for positive sizes and the threads (C111) are left out."
  },
  {
   "property": "C119",
   "status": "proved",
   "theorems": [
    "Verif.MaxusMem.C119_defined",
    "Verif.MaxusMem.C119_same",
    "Verif.MaxusMem.C119_call",
    "Verif.MaxusMem.C119_limit"
   ],
   "note": "Proved also where the short variables of the line walker wrap around: the cells of the grid always come first in the line. The bound on the number of cells is sharp (C119_limit). Threads: C111."
  },
  {
   "property": "C120",
   "status": "partial",
   "theorems": [
    "Verif.Wrap.C120_topotherm_partial",
    "Verif.Wrap.C120_dewpoint_partial",
    "Verif.Wrap.C120_wetbulb_partial",
    "Verif.Wrap.C120_refused",
    "Verif.Wrap.C120_size_fails",
    "Verif.Wrap.C120_fails",
    "Verif.Wrap.C120_shape_fails"
   ],
   "note": "Proved for fewer than 2^31 cells. Negations: the number of cells is cut to 32 bits without notice (65536 by 65536 cells: nothing is calculated); the number of cells is taken from the first array only and the shapes are not compared, so that a smaller second or third array is read outside its memory."
  },
  {
   "property": "C121",
   "status": "partial",
   "theorems": [
    "Verif.Items.C121_distribution",
    "Verif.Items.C121_precip_partial",
    "Verif.Items.C121_rescale_fails",
    "Verif.Items.C121_rescale_partial",
    "Verif.Items.C121_wind_partial",
    "Verif.Items.C121_wind_gridded_fails",
    "Verif.Items.C121_ninja_csv_fails",
    "Verif.Items.C121_albedo_partial",
    "Verif.Items.C121_dates_fails",
    "Verif.Items.C121_thermal",
    "Verif.Items.C121_full_fails"
   ],
   "note": "Proved for air temperature, vapor pressure, cloud factor and thermal, and for the others outside the cases that fail. Negations: the rescaling of precipitation by the wind reads `tbreak_threshold`, an item that no section has; the Winstral wind model (the default) with gridded data reads `maxus_netcdf`, which the recipe for gridded data removes; WindNinja with stations, if one trigger of a recipe is enough; the decay by dates without dates. The rules of the package inicheck are assumptions (header of Items.lean); only the presence of items is proved, not that a value such as a file name is usable."
  },
  {
   "property": "C122",
   "status": "partial",
   "theorems": [
    "Verif.Tbreak.C122_formula_partial",
    "Verif.Tbreak.C122_edge",
    "Verif.Tbreak.C122_height_partial",
    "Verif.Tbreak.C122_drift_fails",
    "Verif.Tbreak.C122_cardinal",
    "Verif.Tbreak.C122_cells",
    "Verif.Tbreak.C122_guard",
    "Verif.Tbreak.C122_guard_rows_fails",
    "Verif.Tbreak.C122_fails"
   ],
   "note": "C122_formula_partial: with the instrument on the ground the break is the claimed difference where it is negative, else zero, because the outer search begins at the cell itself; C122_edge, C122_height_partial: with an instrument it is at most the angle of its height over one step; C122_drift_fails: with 2 m, cells of at least 17 m and the threshold of 7 degrees no cell is ever a drift cell. C122_cardinal: the ends of the searches for the four winds; C122_guard: what is accepted; C122_guard_rows_fails: the spacing of the rows is not looked at. Missing: oblique directions, values set to zero by a slope below -57 (NoCliff)."
  },
  {
   "property": "C123",
   "status": "partial",
   "theorems": [
    "Verif.Zone.C123_localize",
    "Verif.Zone.C123_rows",
    "Verif.Zone.C123_steps",
    "Verif.Zone.C123_record",
    "Verif.Zone.C123_records_partial",
    "Verif.Zone.C123_autumn_fails",
    "Verif.Zone.C123_decay_partial",
    "Verif.Zone.C123_decay_shift_fails",
    "Verif.Zone.C123_water_day_partial",
    "Verif.Zone.C123_water_day_shift_fails",
    "Verif.Zone.C123_water_days_partial",
    "Verif.Zone.C123_names",
    "Verif.Zone.C123_names_fails",
    "Verif.Zone.C123_fails"
   ],
   "note": "C123_localize, C123_rows, C123_steps: instants of rows and steps. C123_record: which step a record holds; C123_records_partial: one record per step if the clock is not put back. Negations: C123_autumn_fails (every step before the clock is put back loses its record, for any zone whose change is a multiple of the step), C123_decay_shift_fails (the dates of the decay use the first offset of the zone, usually the local mean time), C123_names_fails (the water day takes the abbreviation for the name of a zone: PST, PDT, MDT end the run), C123_water_day_shift_fails. C123_decay_partial, C123_water_day_partial, C123_names: exactly when these are right. The rules of pandas and pytz are assumptions (header of Zone.lean)."
  },
  {
   "property": "C124",
   "status": "partial",
   "theorems": [
    "Verif.Spectrum.C124_points",
    "Verif.Spectrum.C124_continuous",
    "Verif.Spectrum.C124_derivative",
    "Verif.Spectrum.C124_sum",
    "Verif.Spectrum.C124_positive_partial",
    "Verif.Spectrum.C124_bands",
    "Verif.Spectrum.C124_dates",
    "Verif.Spectrum.C124_defined",
    "Verif.Spectrum.C124_negative_fails",
    "Verif.Spectrum.C124_constant_fails",
    "Verif.Spectrum.C124_fails"
   ],
   "note": "C124_points, C124_continuous, C124_sum, C124_bands, C124_dates, C124_defined: the spectrum goes through the table, bands add up, the two bands of the model have 617 and 671 W/m2 and are defined on every date. C124_positive_partial: positive for all bands up to 60 micrometres. Negations: C124_negative_fails (below zero beyond 100 micrometres, outside the bands in use), C124_constant_fails (the whole table makes 97.4 percent of the solar constant). The interpolation of scipy is an assumption, the quadrature is taken as exact."
  },
  {
   "property": "C125",
   "status": "partial",
   "theorems": [
    "Verif.Run.C125_in_range",
    "Verif.Run.C125_no_abort_partial",
    "Verif.Run.C125_radiation_partial",
    "Verif.Run.C125_defaults_partial",
    "Verif.Run.C125_precip_max_fails",
    "Verif.Run.C125_fails",
    "Verif.Run.C125_albedo_night_fails"
   ],
   "note": "C125_in_range: whenever a run of any length ends without an abort, all images are in their limits, dew point below air temperature, precipitation physical, night zero. C125_no_abort_partial: with a sound configuration the run ends, with the dew-point or (tolerance from 7 mK, at least 20 Pa, air between -73.96 and 47 degrees, ground up to 5500 m) the wet-bulb method (missing: sun angles at which the two-stream model fails, wet bulb outside these conditions). C125_radiation_partial: all solar images written are not negative. C125_defaults_partial: the same with the numbers of CoreConfig.ini. Negations: C125_precip_max_fails (redistribution by wind after the limit), C125_albedo_night_fails (night albedo 0 below a positive minimum), C125_fails."
  },
  {
   "property": "C126",
   "status": "partial",
   "theorems": [
    "Verif.Stamp.C126_rounding",
    "Verif.Stamp.C126_apart",
    "Verif.Stamp.C126_order",
    "Verif.Stamp.C126_exact",
    "Verif.Stamp.C126_records",
    "Verif.Stamp.C126_decode",
    "Verif.Stamp.C126_restart_partial",
    "Verif.Stamp.C126_restart_fails",
    "Verif.Stamp.C126_double_fails",
    "Verif.Stamp.C126_collision_fails",
    "Verif.Stamp.C126_fails"
   ],
   "note": "C126_apart, C126_order, C126_records: up to 2^18 hours (29.9 years) from the start date of the file different minutes have different, ordered times and, compared in single precision (numpy 1), one record each with the latest value. C126_exact, C126_decode, C126_restart_partial: exact, and found by a restart, exactly for whole quarters of an hour. Negations: C126_restart_fails (any other start date is not found and the storm clock starts at zero), C126_double_fails (compared in double precision, as numpy 2 does, every rerun adds a record), C126_collision_fails (minutes collide beyond 2^18 hours), C126_fails. C126_rounding: the rounding is the nearest number of the format, ties to even."
  },
  {
   "property": "C127",
   "status": "partial",
   "theorems": [
    "Verif.Run.C127_linked",
    "Verif.Run.C127_dew_partial",
    "Verif.Run.C127_wet_partial",
    "Verif.Run.C127_dry_spell",
    "Verif.Run.C127_phase"
   ],
   "note": "C127_linked: all relations between the published images, by induction over the run. C127_dew_partial: the dew point in terms of the saturation curve, from 20 Pa up. C127_wet_partial: the precipitation temperature of the wet-bulb method solves the psychrometric equation of the published air temperature and dew point. C127_dry_spell: the storm clock over a dry run of any length. C127_phase: the snow images."
  },
  {
   "property": "C128",
   "status": "partial",
   "theorems": [
    "Verif.Sessions.C128_header",
    "Verif.Sessions.C128_latest",
    "Verif.Sessions.C128_sorted",
    "Verif.Sessions.C128_read_partial",
    "Verif.Sessions.C128_zone_fails",
    "Verif.Sessions.C128_grid_fails",
    "Verif.Sessions.C128_shape_fails",
    "Verif.Sessions.C128_fails"
   ],
   "note": "C128_header, C128_latest, C128_sorted: for all sequences of runs with grids of one shape and steps within 2^18 hours. C128_read_partial: a reader finds the latest image of each instant, if all zones have one offset. Negations: C128_zone_fails (a run in another zone is read as other instants), C128_grid_fails (other coordinates of the same shape are written without notice), C128_shape_fails (a run on another shape aborts and leaves a record of fill values), C128_fails."
  },
  {
   "property": "C129",
   "status": "proved",
   "theorems": [
    "Verif.Run.C129_files",
    "Verif.Run.C129_abort",
    "Verif.Run.C129_in_range"
   ],
   "note": "C129_files, C129_abort: by induction over the run, from the model of the whole time step (C125) and of the time variable (C126), up to 2^18 hours. C129_in_range: the ranges of C125 in the files. The requested variables must exist as attributes when written (otherwise the run raises an exception, modelled); wind variables other than speed, storm totals and soil temperature are not among the images modelled."
  },
  {
   "property": "C130",
   "status": "partial",
   "theorems": [
    "Verif.Feed.C130_serial",
    "Verif.Feed.C130_threaded_partial",
    "Verif.Feed.C130_hang_fails",
    "Verif.Feed.C130_duplicate_fails",
    "Verif.Feed.C130_fails"
   ],
   "note": "C130_serial: exactly the only row of the date in the period, otherwise an exception. C130_threaded_partial: the same for the data queue of the C01 model, for increasing dates; with a time-out a missing date ends the run. Negations: C130_hang_fails (without a time-out, the default, a missing date or variable makes the threaded run wait for ever), C130_duplicate_fails (a doubled date gives a frame in the serial run and the last row in the threaded run), C130_fails."
  },
  {
   "property": "C131",
   "status": "partial",
   "theorems": [
    "Verif.MaxusLib.C131_complete",
    "Verif.MaxusLib.C131_lookup_partial",
    "Verif.MaxusLib.C131_windowed_partial",
    "Verif.MaxusLib.C131_increment_fails",
    "Verif.MaxusLib.C131_interrupted_fails",
    "Verif.MaxusLib.C131_names",
    "Verif.MaxusLib.C131_window_name",
    "Verif.MaxusLib.C131_directory",
    "Verif.MaxusLib.C131_root",
    "Verif.MaxusLib.C131_bare_fails",
    "Verif.MaxusLib.C131_flag_fails",
    "Verif.MaxusLib.C131_fails"
   ],
   "note": "C131_complete: the finished library holds every direction with its image. C131_lookup_partial: for increments that divide 360 the cell gets the slopes of a nearest direction, for every azimuth. C131_windowed_partial: the same through the windower, for directions whose window does not reach north (C65). C131_names: the windowed file has another name. Negations: C131_increment_fails (every other increment below 360 has an azimuth for which no image is found and the run aborts), C131_interrupted_fails (an interrupted script leaves a file with all directions and the full shape, and fill values for the images not reached), C131_bare_fails (an output name without a directory is refused), C131_flag_fails (--make_tbreak False switches the option on), C131_fails."
  },
  {
   "property": "C132",
   "status": "partial",
   "theorems": [
    "Verif.Threaded.C132_images_partial",
    "Verif.Threaded.C132_files_partial",
    "Verif.Threaded.C132_completes_partial",
    "Verif.Threaded.C132_records_partial",
    "Verif.Threaded.C132_frequency_fails",
    "Verif.Threaded.C132_corrections_fails",
    "Verif.Threaded.C132_fails"
   ],
   "note": "C132_images_partial: what the threads publish are the images of the serial run of the same modules. C132_completes_partial: every reachable state can go on to the end, no deadlock. C132_files_partial: at the end the files are those of the serial run. C132_records_partial: what these files hold. Missing: winstral redistribution of precipitation (C10_wind_argument_fails) and steps that raise. Negations: C132_frequency_fails (an output frequency above 1: the threaded run never ends), C132_corrections_fails (cloud or vegetation correction off: the threaded run never ends), C132_fails (a job whose serial run ends)."
  },
  {
   "property": "C133",
   "status": "partial",
   "theorems": [
    "Verif.StationEnh.C133_asked_partial",
    "Verif.StationEnh.C133_case",
    "Verif.StationEnh.C133_loaded",
    "Verif.StationEnh.C133_flat_partial",
    "Verif.StationEnh.C133_option_fails",
    "Verif.StationEnh.C133_abort_fails",
    "Verif.StationEnh.C133_again_fails",
    "Verif.StationEnh.C133_numbers_fails",
    "Verif.StationEnh.C133_fails"
   ],
   "note": "C133_asked_partial: on metadata without the column every station gets what is asked for it, for any order. C133_case: names that differ in case get the same. C133_loaded: the names of the file reach the section unchanged up to case. C133_flat_partial: the enhancement asked is the one used in the slope and flat wind of the station. Negations: C133_option_fails (a station named like a numeric option, e.g. MAX, gets the value of the option), C133_abort_fails (one named like an option that is no number ends the run), C133_again_fails (once the column exists, even after an exception, no section is looked at any more), C133_numbers_fails (stations with numbers for names cannot be loaded), C133_fails."
  },
  {
   "property": "C134",
   "status": "partial",
   "theorems": [
    "Verif.Wrf.C134_partial",
    "Verif.Wrf.C134_refused",
    "Verif.Wrf.C134_timed_fails",
    "Verif.Wrf.C134_long_fails",
    "Verif.Wrf.C134_twice_fails",
    "Verif.Wrf.C134_cloud",
    "Verif.Wrf.C134_fails"
   ],
   "note": "C134_partial: coordinates on (y, x), UTC, a record between the dates. C134_refused: other time zones, or no record between the dates, are errors. C134_cloud: the cloud factor is in [0, 1]. Negations: C134_timed_fails (coordinates on (Time, y, x), as WRF writes them: the station at the place of cell (y, x) has the name and values of cell (t, y)), C134_long_fails (such a file with more records than rows cannot be loaded), C134_twice_fails (such a file gives stations of the same name), C134_fails."
  },
  {
   "property": "C135",
   "status": "partial",
   "theorems": [
    "Verif.OutAsked.C135_netcdf_partial",
    "Verif.OutAsked.C135_defaults",
    "Verif.OutAsked.C135_all_fails",
    "Verif.OutAsked.C135_hru_fails",
    "Verif.OutAsked.C135_type",
    "Verif.OutAsked.C135_fails"
   ],
   "note": "C135_netcdf_partial: netCDF files for every request without 'all'. C135_defaults: the default request. C135_type: other file types are refused. Negations: C135_all_fails ('all' adds nothing to any request), C135_hru_fails (no run with HRU output gets beyond its first step: the writer has no variable_dict), C135_fails."
  },
  {
   "property": "C136",
   "status": "partial",
   "theorems": [
    "Verif.Crash.C136_serial",
    "Verif.Crash.C136_hang_fails",
    "Verif.Crash.C136_missing",
    "Verif.Crash.C136_stops_near",
    "Verif.Crash.C136_values",
    "Verif.Crash.C136_bounded",
    "Verif.Crash.C136_settles",
    "Verif.Crash.C136_before",
    "Verif.Crash.C136_timeout_progress",
    "Verif.Crash.C136_timeout_ends",
    "Verif.Crash.C136_silent_fails",
    "Verif.Crash.C136_fails",
    "Verif.Crash.C136_slow_fails",
    "Verif.Crash.C136_network_hang_fails",
    "Verif.Crash.C136_network_output",
    "Verif.Crash.C136_network_before",
    "Verif.Crash.C136_network_timeout"
   ],
   "note": "C136_serial: the serial run ends with the exception. Negations: C136_hang_fails (no time-out, the default: main never leaves its joins), C136_silent_fails (with a time-out the run ends and main returns normally, the variable missing from that date on), C136_slow_fails (a time-out alone can do that without any exception), C136_network_hang_fails (every configuration of SMRF), C136_fails. What does hold: C136_missing (nothing more from the dead module), C136_stops_near (other modules stop within the capacity of their queue), C136_values (everything published is what the serial run computes), C136_bounded and C136_settles (every run comes to a standstill), C136_before and C136_network_before (without a time-out the dates before the accident are finished), C136_timeout_progress, C136_timeout_ends and C136_network_timeout (with a time-out every run ends, also in the configurations in which C09 fails), C136_network_output (no record of the date of the accident or later is finished)."
  },
  {
   "property": "C137",
   "status": "partial",
   "theorems": [
    "Verif.Causal.C137_prefix",
    "Verif.Causal.C137_steps",
    "Verif.Causal.C137_files",
    "Verif.Causal.C137_threaded",
    "Verif.Causal.C137_cloud_steps",
    "Verif.Causal.C137_wrf_precip",
    "Verif.Causal.C137_cloud_day",
    "Verif.Causal.C137_cloud_night",
    "Verif.Causal.C137_cloud_fails",
    "Verif.Causal.C137_storms",
    "Verif.Causal.C137_clip",
    "Verif.Causal.C137_factor_partial",
    "Verif.Causal.C137_nodrizzle_partial",
    "Verif.Causal.C137_drizzle_fails",
    "Verif.Causal.C137_fails"
   ],
   "note": "Proved of the loops: C137_prefix, C137_steps, C137_files (serial run, images and records), C137_threaded (any two threaded runs that behave alike up to a date), C137_cloud_steps and C137_wrf_precip (loaders), C137_cloud_day, C137_storms (storms of a longer record: finished ones unchanged, the last one may go on, others later), C137_clip (the precipitation kept). Negations: C137_drizzle_fails and C137_fails (marks2017: the correction factor is taken over the whole period, later drizzle raises earlier precipitation), C137_cloud_fails (the HRRR cloud factor of the night is interpolated to the next morning). What holds there: C137_factor_partial (one factor per station), C137_nodrizzle_partial (no drizzle outside the storms: no dependence), C137_cloud_night (dependence reaches to the next daylight time only)."
  },
  {
   "property": "C138",
   "status": "partial",
   "theorems": [
    "Verif.Crop.C138_run_partial",
    "Verif.Crop.C138_air",
    "Verif.Crop.C138_renumber",
    "Verif.Crop.C138_precip",
    "Verif.Crop.C138_storm_fails",
    "Verif.Crop.C138_percent_fails",
    "Verif.Crop.C138_sun_fails",
    "Verif.Crop.C138_fails"
   ],
   "note": "The full claim (C138_full) is false: C138_fails is a run over two cells with default models in which a dry cell's days since the last storm differ. Causes: C138_storm_fails (timeSinceStorm counts the day only if it snows nowhere in the domain), C138_percent_fails (marks2017: snow percentage of dry cells), C138_sun_fails (two-stream model with the mean albedo of the domain: a part that is darker on the average gets strictly less diffuse light). Proved: C138_run_partial (everything, if the part represents the domain in every step: it has a cell with precipitation, snow, cold precipitation if the domain has one and, by day, the same mean albedos), C138_renumber (any renumbering of the cells, unconditional), C138_air and C138_precip (air temperature, vapor pressure, dew point, precipitation temperature, wind, cloud factor, thermal radiation, precipitation: any part, any states)."
  },
  {
   "property": "C139",
   "status": "partial",
   "theorems": [
    "Verif.Order.C139_idw",
    "Verif.Order.C139_detrended_partial",
    "Verif.Order.C139_weights_partial",
    "Verif.Order.C139_kriging_partial",
    "Verif.Order.C139_tie_fails",
    "Verif.Order.C139_fails",
    "Verif.Order.C139_wind_partial",
    "Verif.Order.C139_pixel_fails"
   ],
   "note": "The full claim about the kriging weights (C139_full) is false: C139_fails, by C139_tie_fails (five stations of one elevation at different places: of the stations with negative weight the first one listed is dropped first; with two stations exchanged one of them gets the weight 0 instead of 1/1639). C139_pixel_fails: of two stations in one pixel the wind of the last one listed counts. Proved: C139_idw (every order, every cell, all gaps), C139_detrended_partial (data at two elevations at least), C139_weights_partial (stations above the sea have different elevations), C139_kriging_partial (a run of detrended kriging over any number of steps with gaps: same images), C139_wind_partial (every station in a pixel of its own)."
  },
  {
   "property": "C140",
   "status": "partial",
   "theorems": [
    "Verif.Frame.C140_idw",
    "Verif.Frame.C140_detrended_map",
    "Verif.Frame.C140_detrended_partial",
    "Verif.Frame.C140_kriging_map",
    "Verif.Frame.C140_kriging_partial",
    "Verif.Frame.C140_sea_fails",
    "Verif.Frame.C140_fails",
    "Verif.Frame.C140_data_partial"
   ],
   "note": "The full claim about the kriging weights (C140_full) is false: C140_fails, by C140_sea_fails (three stations, heights counted from a level 100 higher: a station now below zero keeps the weight -1/7, before it has none below 0). Proved: C140_idw (every change of frame, every exponent, every cell, all gaps), C140_detrended_map and C140_kriging_map (another map; any fit, stations also at one place or at one elevation, the process ends in one frame exactly if in the other), C140_detrended_partial and C140_kriging_partial (also heights; data at two elevations at least, for kriging every station on the same side of zero), C140_data_partial (kriging and the unit of the data; data at two elevations at least; IDW: C53_affine_partial)."
  },
  {
   "property": "C141",
   "status": "partial",
   "theorems": [
    "Verif.Pykrige.C141_image_partial",
    "Verif.Pykrige.C141_run_partial",
    "Verif.Pykrige.C141_no_data",
    "Verif.Pykrige.C141_affine",
    "Verif.Pykrige.C141_gaps",
    "Verif.Pykrige.C141_coordinates_fails",
    "Verif.Pykrige.C141_fails"
   ],
   "note": "The full claim (C141_full) is false: C141_fails, by C141_coordinates_fails (krig_coordinates_type is read but not passed to pykrige: with geographic the estimate is that of plane coordinates). Proved: C141_image_partial and C141_run_partial (image and variance of a step, images of a run; coordinates euclidean), C141_affine (data affine in the elevation at two elevations at least are reproduced, every estimator that is a weighted sum of the values), C141_gaps, C141_no_data."
  },
  {
   "property": "C142",
   "status": "partial",
   "theorems": [
    "Verif.Beta.C142_recurrence",
    "Verif.Beta.C142_unique",
    "Verif.Beta.C142_sum",
    "Verif.Beta.C142_isotropic",
    "Verif.Beta.C142_error",
    "Verif.Beta.C142_succeeds",
    "Verif.Beta.C142_valid",
    "Verif.Beta.C142_accident_fails",
    "Verif.Beta.C142_fails",
    "Verif.Beta.C142_silent_fails"
   ],
   "note": "The full claim (C142_full) is false: C142_fails, by C142_accident_fails (default asymmetry 0.3: at the zero of the third polynomial, square of the cosine 3/5, the sum stops with the first term, error above 3e-5) and C142_silent_fails (g = 1, sun overhead: the loop runs out, the warning is dead code, result above 1/128). Proved: C142_recurrence and C142_unique (the polynomials of the recurrence are the Legendre polynomials, defined by degree, orthogonality and value at one), C142_sum (a result is half of one minus a partial sum of the series, with the degree at which it ends), C142_error (bound of the error against the integral), C142_isotropic (exact for g = 0), C142_succeeds (for g <= 1/3 a result for every sun, at most degree 41), C142_valid (with g <= 1/3 and omega >= 3/4 the parameters are those the theorems on solar radiation and the run ask for, at every sun)."
  },
  {
   "property": "C143",
   "status": "partial",
   "theorems": [
    "Verif.Start.C143_constructor",
    "Verif.Start.C143_future",
    "Verif.Start.C143_written",
    "Verif.Start.C143_carried_out",
    "Verif.Start.C143_status_partial",
    "Verif.Start.C143_refused_fails",
    "Verif.Start.C143_several_fails",
    "Verif.Start.C143_missing_fails",
    "Verif.Start.C143_empty",
    "Verif.Start.C143_argument",
    "Verif.Start.C143_can_run",
    "Verif.Start.C143_fails",
    "Verif.Start.C143_both_fails"
   ],
   "note": "The full claim (C143_full) is false: C143_fails; a configuration with errors (C143_refused_fails), several configuration files (C143_several_fails) and a missing file (C143_missing_fails) end by sys.exit() without argument, status 0. Proved: C143_status_partial (for one configuration file without errors: status 0 exactly if carried out, else 1), C143_carried_out (loader and flags), C143_constructor (accepted exactly if acceptable), C143_future, C143_written, C143_empty, C143_can_run (can_i_run_smrf never returns False). C143_both_fails: with both data sections, which the recipes exclude, dates are checked as for gridded data while stations are read. The phases are parameters. C143_argument: calls from python without a file are refused before any effect."
  },
  {
   "property": "C144",
   "status": "partial",
   "theorems": [
    "Verif.IdwFloat.C144_cell",
    "Verif.IdwFloat.C144_range",
    "Verif.IdwFloat.C144_order",
    "Verif.IdwFloat.C144_trend",
    "Verif.IdwFloat.C144_nearest",
    "Verif.IdwFloat.C144_double",
    "Verif.IdwFloat.C144_fails"
   ],
   "note": "Proved: C144_cell, C144_order (two orders of stations or additions), C144_trend, C144_double (double precision, power 2), C144_nearest (rounding to the nearest has the relative error assumed), C144_range (within the range of the data up to rounding). The last sentence of the claim (C144_full) is false: C144_fails, three stations with 0.1 around a cell give 0.10000000000000002 in double precision. No overflow, underflow, infinities or NaN in this model (Idw has infinities and NaN without rounding); np.polyfit is not modelled, the trend is any two numbers."
  },
  {
   "property": "C145",
   "status": "partial",
   "theorems": [
    "Verif.Hrrr.C145_same_partial",
    "Verif.Hrrr.C145_label",
    "Verif.Hrrr.C145_shape",
    "Verif.Hrrr.C145_time",
    "Verif.Hrrr.C145_fails",
    "Verif.Hrrr.C145_direction_fails"
   ],
   "note": "Proved: C145_same_partial (tables with the same labels in the same order, humidity in percent and at least 1 in the first place, see C42): all six tables. C145_label: air temperature, precipitation and wind speed go by labels whatever the order; what the table does not have is NaN. C145_time: a time the zone does not have or has twice ends the run. The full claim is false: C145_fails (vapor pressure goes by position: humidity with its cells in another order is taken from other cells without an error), C145_direction_fails (direction by position in pandas before 2.0, speed by label). weather_forecast_retrieval, pd.to_numeric and the repetition of single rows by numpy are not modelled."
  },
  {
   "property": "C146",
   "status": "proved",
   "theorems": [
    "Verif.TwoEq.C146_table",
    "Verif.TwoEq.C146_solution",
    "Verif.TwoEq.C146_inside",
    "Verif.TwoEq.C146_energy",
    "Verif.TwoEq.C146_default",
    "Verif.TwoEq.C146_thick"
   ],
   "note": "C146_table: the Horner expressions are the table of Meador and Weaver (g below one; at g = 1 the code has a special case without omega, not covered). C146_solution: a solution of the boundary value problem exists and every solution has the reflectance and transmittance of the code. C146_thick: the shortcut for thick layers. C146_inside, C146_energy: fluxes not negative, no light created. C146_default: the parameters of the configuration, every sun above the horizon, in terms of the beam and diffuse light passed on. Conservative scattering (omega = 1), where the code perturbs gam1, is excluded; rounding is not modelled."
  },
  {
   "property": "C147",
   "status": "partial",
   "theorems": [
    "Verif.Krige.C147_error",
    "Verif.Krige.C147_used_partial",
    "Verif.Krige.C147_best",
    "Verif.Krige.C147_all",
    "Verif.Krige.C147_exists",
    "Verif.Krige.C147_estimate_partial",
    "Verif.Krige.C147_fails"
   ],
   "note": "C147_exists: fields with a linear variogram exist for any stations and cell (distances are of negative type). C147_error: the mean square error in terms of the distances. Proved: C147_used_partial, C147_estimate_partial (best, and the only best, among weights of the stations in use), C147_best (if the best weights are not negative they come back), C147_all (if no weight is zero they are best of all). Missing and false (C147_fails): stations with a negative weight are dropped, which gives worse weights. Whether the weights are the best non-negative ones is not claimed: in a floating point search outside the model (not proved; stations and cell at random points of a 13 by 13 lattice, 20000 placements for each number of stations, every order of dropping tried, so for some choice of elevations) the rule missed the best non-negative weights in 0 placements with three and with four stations, 4 with five and 14 with six."
  },
  {
   "property": "C148",
   "status": "partial",
   "theorems": [
    "Verif.Krige.C148_line_partial",
    "Verif.Krige.C148_slope",
    "Verif.Krige.C148_only",
    "Verif.Krige.C148_fails",
    "Verif.Krige.C148_near_fails"
   ],
   "note": "True: C148_slope (no nugget: every slope gives the weights of the distances, or both end the process), C148_line_partial (also with a nugget, if it is counted at distance zero as well). False: C148_fails (a semivariogram with a nugget that is zero at distance zero gives other weights), and C148_only (two nuggets give the same weights, none zero, at a cell off the stations only if all weights are equal). C148_near_fails: a station keeps a quarter of the weight at any distance."
  },
  {
   "property": "C149",
   "status": "proved",
   "theorems": [
    "Verif.ClockFloat.C149_running",
    "Verif.ClockFloat.C149_since",
    "Verif.ClockFloat.C149_ticks",
    "Verif.ClockFloat.C149_exact",
    "Verif.ClockFloat.C149_double",
    "Verif.ClockFloat.C149_day"
   ],
   "note": "C149_running, C149_since: bounds by induction over the steps. C149_double: double precision (rounding to nearest with 53 digits, exponent without limits). C149_day: last_storm_day, from the conclusion of C149_double. C149_ticks: the clock does not stand still while u times its value is below the step. C149_exact: without rounding the model is that of C28."
  },
  {
   "property": "C150",
   "status": "partial",
   "theorems": [
    "Verif.Unread.C150_uniform_partial",
    "Verif.Unread.C150_effect_partial",
    "Verif.Unread.C150_fails",
    "Verif.Unread.C150_albedo_partial",
    "Verif.Unread.C150_albedo_fails",
    "Verif.Unread.C150_albedo_full_fails"
   ],
   "note": "Full claims C150_full and C150_albedo_full are false: C150_fails (susong1999_timesteps_to_end_storms is never read and marks2017_timesteps_to_end_storms acts in its place), C150_albedo_fails, C150_albedo_full_fails (correct_albedo is never read). Proved instead: C150_effect_partial says exactly at which cells of one step the number matters; C150_uniform_partial: it does not matter to a run in which it snows everywhere or nowhere at every step; C150_albedo_partial: with the item on the net radiation is the described one (no limits, no other corrections)."
  },
  {
   "property": "C151",
   "status": "proved",
   "theorems": [
    "Verif.ClipFloat.C151_outside",
    "Verif.ClipFloat.C151_unselected",
    "Verif.ClipFloat.C151_cell",
    "Verif.ClipFloat.C151_total",
    "Verif.ClipFloat.C151_double"
   ],
   "note": "C151_outside, C151_cell (against the model without rounding of C25), C151_total, C151_double (rounding to nearest with 53 digits, exponent without limits). The stations that lose all precipitation are those of C25_total_iff; they lose it here too (C151_outside). Overflow and underflow are not modelled."
  },
  {
   "property": "C152",
   "status": "partial",
   "theorems": [
    "Verif.LuFloat.C152_backward_partial",
    "Verif.LuFloat.C152_none",
    "Verif.LuFloat.C152_residual_partial",
    "Verif.LuFloat.C152_forward_partial",
    "Verif.LuFloat.C152_exact",
    "Verif.LuFloat.C152_double",
    "Verif.LuFloat.C152_fails"
   ],
   "note": "C152_backward_partial, C152_residual_partial and C152_forward_partial need right-hand sides without negative numbers (the case of kriging); C152_fails is the witness that without it the claim is false (see C57). C152_none, C152_exact (no error without rounding), C152_double. The factor 2^n in gamma is the a priori growth bound of partial pivoting. Fused multiply-add, overflow, underflow, infinities and NaN are not modelled."
  },
  {
   "property": "C153",
   "status": "partial",
   "theorems": [
    "Verif.KrigeFloat.C153_terminates",
    "Verif.KrigeFloat.C153_nonneg_partial",
    "Verif.KrigeFloat.C153_equations",
    "Verif.KrigeFloat.C153_sum",
    "Verif.KrigeFloat.C153_range",
    "Verif.KrigeFloat.C153_exit",
    "Verif.KrigeFloat.C153_double",
    "Verif.KrigeFloat.C153_negative_fails",
    "Verif.KrigeFloat.C153_fails"
   ],
   "note": "C153_nonneg_partial: missing are stations at or below sea level, where a negative weight stays; C153_negative_fails shows this in double precision. C153_terminates, C153_equations, C153_sum, C153_range, C153_exit, C153_double. Distances are inputs (their rounding only changes which numbers they are). Overflow, underflow, fused multiply-add not modelled."
  },
  {
   "property": "C154",
   "status": "partial",
   "theorems": [
    "Verif.RestartFloat.C154_double_partial",
    "Verif.RestartFloat.C154_forgets",
    "Verif.RestartFloat.C154_drift_bound",
    "Verif.RestartFloat.C154_year",
    "Verif.RestartFloat.C154_drift_fails",
    "Verif.RestartFloat.C154_after_storm_fails",
    "Verif.RestartFloat.C154_fails"
   ],
   "note": "C154_double_partial: exact in double precision; missing: single precision, for which C154_fails and C154_drift_fails show the drift with rounding to 24 digits computed exactly. C154_drift_bound and C154_year bound it; C154_forgets: a storm makes the value read irrelevant but not the precision (C154_after_storm_fails). That numpy converts the number added to the type of the array is taken from its documentation. Which record is read is C109."
  },
  {
   "property": "C155",
   "status": "partial",
   "theorems": [
    "Verif.CoordFloat.C155_exact_partial",
    "Verif.CoordFloat.C155_near",
    "Verif.CoordFloat.C155_order",
    "Verif.CoordFloat.C155_collapse_fails",
    "Verif.CoordFloat.C155_fails"
   ],
   "note": "C155_exact_partial: multiples of 0.5 m; missing: other coordinates, for which C155_fails and C155_collapse_fails show that the double precision setting does not keep them. C155_near and C155_order bound the change and keep the order for cells of at least 1.2 m. Rounding to 24 digits to nearest; no overflow."
  },
  {
   "property": "C156",
   "status": "partial",
   "theorems": [
    "Verif.DiskFloat.C156_monotone",
    "Verif.DiskFloat.C156_files",
    "Verif.DiskFloat.C156_limits_partial",
    "Verif.DiskFloat.C156_double",
    "Verif.DiskFloat.C156_default",
    "Verif.DiskFloat.C156_near",
    "Verif.DiskFloat.C156_dew",
    "Verif.DiskFloat.C156_calm_fails",
    "Verif.DiskFloat.C156_fails"
   ],
   "note": "C156_limits_partial: limits with at most 24 binary digits (C156_default: all default limits but that of the wind); missing: other limits in single precision, refuted by C156_fails and, for every calm cell, C156_calm_fails. C156_files: rounding commutes with the whole run; C156_monotone, C156_dew: order kept; C156_near: a limit is passed by at most 2^-24 of the value; C156_double: nothing changes in double precision. Images themselves exact; no overflow or underflow."
  },
  {
   "property": "C157",
   "status": "partial",
   "theorems": [
    "Verif.Split.C157_split_partial",
    "Verif.Split.C157_over_partial",
    "Verif.Split.C157_total",
    "Verif.Split.C157_fails",
    "Verif.Split.C157_storms_partial",
    "Verif.Split.C157_clip_partial",
    "Verif.Split.C157_table_partial",
    "Verif.Split.C157_cut_fails",
    "Verif.Split.C157_drizzle_fails"
   ],
   "note": "C157_split_partial: station data with marks2017, same images or same error (simulation over the steps). C157_over_partial: gridded data, if the last storm is over in every cell at the restart. C157_storms_partial, C157_clip_partial, C157_table_partial: the storms and rows of the second part, if the first part ends dry and (table) there is no drizzle. Missing cases refuted by C157_fails (susong1999: the storm mass is not restored), C157_cut_fails (restart in a storm) and C157_drizzle_fails. C157_total: the storm total of the first part is lost. The clock is handed on exactly; its rounding in the file is C154."
  },
  {
   "property": "C158",
   "status": "partial",
   "theorems": [
    "Verif.Reread.C158_clock",
    "Verif.Reread.C158_lost",
    "Verif.Reread.C158_mask_fails",
    "Verif.Reread.C158_restart_partial",
    "Verif.Reread.C158_fails"
   ],
   "note": "C158_clock and C158_lost: the clock read in every case but a start at the first step (index -1). C158_restart_partial: composition with C157 for output of every step. Missing cases refuted by C158_fails (steps of 20 minutes) and C158_mask_fails. num2date rounds to the nearest microsecond (assumption as in C126); dates as minutes since the start of the first run."
  },
  {
   "property": "C159",
   "status": "partial",
   "theorems": [
    "Verif.DewFloat.C159_error",
    "Verif.DewFloat.C159_monotone",
    "Verif.DewFloat.C159_file",
    "Verif.DewFloat.C159_below",
    "Verif.DewFloat.C159_solved_partial",
    "Verif.DewFloat.C159_table_partial",
    "Verif.DewFloat.C159_share",
    "Verif.DewFloat.C159_fails"
   ],
   "note": "C159_error, C159_monotone, C159_below, C159_file, C159_share hold as stated; C159_table_partial excludes dew points near an edge of the table, where C159_fails gives a cell that changes from a quarter snow to rain. C159_solved_partial inherits the range of C43_range_partial. Rounding inside the solver and the float's exponent limits are not modelled."
  },
  {
   "property": "C160",
   "status": "partial",
   "theorems": [
    "Verif.Logs.C160_lines",
    "Verif.Logs.C160_first_partial",
    "Verif.Logs.C160_silent",
    "Verif.Logs.C160_append",
    "Verif.Logs.C160_setup",
    "Verif.Logs.C160_fails"
   ],
   "note": "C160_lines is the exact characterisation for every history; C160_first_partial the claim for modules that have not logged before; C160_fails and C160_silent refute it for a second run. The behaviour of logging.config.dictConfig (disable_existing_loggers defaults to True) and of coloredlogs.install is taken from their documentation."
  },
  {
   "property": "C161",
   "status": "partial",
   "theorems": [
    "Verif.KrigeCell.C161_cell",
    "Verif.KrigeCell.C161_linear",
    "Verif.KrigeCell.C161_order",
    "Verif.KrigeCell.C161_range_partial",
    "Verif.KrigeCell.C161_double_partial",
    "Verif.KrigeCell.C161_fails"
   ],
   "note": "C161_cell, C161_linear and C161_order hold for any weights; C161_range_partial and C161_double_partial need stations above sea level, C161_fails shows a negative estimate from non-negative data otherwise (negative weights stay at stations at or below sea level, as in C56 and C153). The trend of np.polyfit is any pair of numbers."
  },
  {
   "property": "C162",
   "status": "partial",
   "theorems": [
    "Verif.SunDigits.C162_order",
    "Verif.SunDigits.C162_cosine",
    "Verif.SunDigits.C162_digits",
    "Verif.SunDigits.C162_azimuth",
    "Verif.SunDigits.C162_radius",
    "Verif.SunDigits.C162_day",
    "Verif.SunDigits.C162_fails",
    "Verif.SunDigits.C162_day_partial",
    "Verif.SunDigits.C162_again",
    "Verif.SunDigits.C162_sunang"
   ],
   "note": "C162_fails: a cosine of 4e-7 is cut to 0 and the step is a night; C162_day gives the exact threshold, C162_day_partial the part of the claim that holds. The double arithmetic before the digits are cut is not rounded in the model."
  },
  {
   "property": "C163",
   "status": "partial",
   "theorems": [
    "Verif.TwoFloat.C163_order_partial",
    "Verif.TwoFloat.C163_value_partial",
    "Verif.TwoFloat.C163_double_partial",
    "Verif.TwoFloat.C163_exact",
    "Verif.TwoFloat.C163_fails"
   ],
   "note": "C163_fails: cosz 0.75, omega 1, g 2^-17 in double precision raises the ValueError (the loop of beta_0 is followed in the model, two turns). C163_exact: without rounding the model is that of C49. C163_order_partial, C163_value_partial and C163_double_partial need the albedo below one. The exponentials and fluxes are not rounded."
  },
  {
   "property": "C164",
   "status": "partial",
   "theorems": [
    "Verif.HorizonFloat.C164_exact",
    "Verif.HorizonFloat.C164_bound_partial",
    "Verif.HorizonFloat.C164_double_partial",
    "Verif.HorizonFloat.C164_fails"
   ],
   "note": "C164_fails: six cells of a row in double precision for which the third cell is chosen though the last is higher, and the slope reported is larger than any of the true ones. C164_bound_partial: the bound for every rounding and every straight profile; the errors grow with N and not with its square because every turn of the inner loop but two takes a point out of the chain of horizons. C164_double_partial: the numbers for doubles. C164_exact: without rounding the model is that of C64. Lines that are not straight are the subject of C64; the arc tangent is exact."
  },
  {
   "property": "C165",
   "status": "proved",
   "theorems": [
    "Verif.HorizonBent.C165_profile",
    "Verif.HorizonBent.C165_line",
    "Verif.HorizonBent.C165_square",
    "Verif.HorizonBent.C165_sharp"
   ],
   "note": "Complements C64, which shows that on a line of cells that is not straight the highest point can be missed. C165_profile: any line of points whose length between two points is at most kappa times their distance. C165_line, C165_square: the lines that find_line makes, from the cell to the value after the correction of model.py. C165_sharp: three cells for which the loss is 7.9 percent. Exact arithmetic; C164 has the rounding on straight lines."
  },
  {
   "property": "C166",
   "status": "partial",
   "theorems": [
    "Verif.HorizonBent.C166_straight_partial",
    "Verif.HorizonBent.C166_line_partial",
    "Verif.HorizonBent.C166_fails",
    "Verif.HorizonBent.C166_datum",
    "Verif.HorizonBent.C166_scale"
   ],
   "note": "C166_fails: on the line from (0,0) to (2,1), raising the middle cell from 0.5 to 1 stops the search there and lowers the reported slope from 1.079 to 1. C166_straight_partial: true on straight lines seen from the ground. C166_line_partial: on square cells and in any direction the loss is at most 8.3 percent plus the share of the instrument height. C166_datum and C166_scale hold without condition. Exact arithmetic."
  },
  {
   "property": "C167",
   "status": "partial",
   "theorems": [
    "Verif.Fresher.C167_marks",
    "Verif.Fresher.C167_albedo",
    "Verif.Fresher.C167_susong_partial",
    "Verif.Fresher.C167_trace_fails",
    "Verif.Fresher.C167_fails",
    "Verif.Fresher.C167_overwrite_fails",
    "Verif.Fresher.C167_clip_fails"
   ],
   "note": "C167_marks and C167_albedo: true for the clock of marks2017, for every number of steps, given the precipitation after the clipping to storms. C167_susong_partial: true for susong1999 if no dry step becomes wet and no dry cell gets less snow than the mass threshold. C167_fails by C167_trace_fails: half a millimetre of snow in an otherwise dry hour makes the snow a day old instead of an hour, because wet steps count a day and dry steps count the time step. C167_overwrite_fails: light snow after a storm replaces the mass of the storm (assignment where a sum is meant). C167_clip_fails: more precipitation outside a storm lowers the corrected precipitation of another step. Exact arithmetic, no missing cells."
  },
  {
   "property": "C168",
   "status": "partial",
   "theorems": [
    "Verif.Fresher.C168_marks",
    "Verif.Fresher.C168_share",
    "Verif.Fresher.C168_dew",
    "Verif.Fresher.C168_image",
    "Verif.Fresher.C168_susong_partial",
    "Verif.Fresher.C168_rain_fails",
    "Verif.Fresher.C168_fails"
   ],
   "note": "C168_marks (clock of marks2017, any number of steps), C168_share (share of snow in each step, both snow models), C168_dew and C168_image (precipitation temperature) hold. C168_susong_partial: the clock of susong1999, if snow that turns to rain was enough for a storm. C168_fails by C168_rain_fails: after ten millimetres of snow a tenth of a millimetre leaves the snow a day old if it falls as snow and new if it falls as rain with some snow, because only snow replaces the mass of the storm. The wet-bulb method is not part of C168_image."
  },
  {
   "property": "C169",
   "status": "proved",
   "theorems": [
    "Verif.Storms.C169_station",
    "Verif.Storms.C169_grows",
    "Verif.Storms.C169_causal",
    "Verif.Storms.C169_basin",
    "Verif.Storms.C169_basin_grows"
   ],
   "note": "C169_station and C169_basin: the closed forms, from the invariants of C23, C24 and C26. C169_grows, C169_basin_grows and C169_causal follow. C169_grows discharges the hypothesis on storms in C167."
  },
  {
   "property": "C170",
   "status": "partial",
   "theorems": [
    "Verif.Solar.C170_surface",
    "Verif.Solar.C170_cloud_partial",
    "Verif.Solar.C170_excess",
    "Verif.Solar.C170_cloudy_fails",
    "Verif.Solar.C170_fails"
   ],
   "note": "C170_surface: the part on albedo and canopy, proved for all limits. C170_full is the part on cloud; C170_fails and C170_cloudy_fails refute it: as the net counts the diffuse part twice, an open cell gets more net radiation under a cloud factor of 0.75 than under a clear sky when at most a tenth of the clear light is diffuse. C170_cloud_partial: it holds for cloud factors up to 0.79 where the canopy passes the beam at least as well as the diffuse light. Missing: other canopies below 0.79. C170_excess bounds the excess for cloud factors up to 0.99: 13.4 percent. The effect of the albedo on the clear-sky images (terrain reflection) is not included."
  },
  {
   "property": "C171",
   "status": "partial",
   "theorems": [
    "Verif.Thermal.C171_moist_partial",
    "Verif.Thermal.C171_hot_partial",
    "Verif.Thermal.C171_cloud_partial",
    "Verif.Thermal.C171_kimball_fails",
    "Verif.Thermal.C171_terrain_fails",
    "Verif.Thermal.C171_dilley_fails",
    "Verif.Thermal.C171_fails"
   ],
   "note": "C171_moist_partial: moister air, all clear-sky methods, all cloud methods but Kimball. C171_hot_partial: hotter air, all clear-sky methods but Marks, all cloud methods but Kimball, where no terrain is seen or the air is above zero; Dilley from -63 degrees and up to 5 kPa. C171_cloud_partial: cloudier sky, all cloud methods, all clear-sky methods but Dilley, from -136 degrees. Refuted elsewhere: C171_kimball_fails (moister air, 27 degrees, below saturation), C171_terrain_fails (hotter air below zero in a cell without sky), C171_dilley_fails (cloudier sky at -100 degrees); C171_fails is the negation of C171_full. Missing: the method of Marks in hotter air, Kimball in hotter air."
  },
  {
   "property": "C172",
   "status": "partial",
   "theorems": [
    "Verif.Idw.C172_plain_partial",
    "Verif.Idw.C172_influence",
    "Verif.Idw.C172_idw",
    "Verif.Idw.C172_trend_partial",
    "Verif.Idw.C172_extrapolated_fails",
    "Verif.Idw.C172_fails"
   ],
   "note": "C172_plain_partial: without trend, at cells without a station. With trend C172_influence gives the exact effect of every reading: its weight plus its pull on the slope times the height of the cell above the weighted mean elevation of the stations (kriging; C172_idw shows that inverse distance weighting is of the same form). C172_trend_partial: no cell falls where all influences are at least zero, as at the weighted mean elevation. C172_extrapolated_fails: above the higher of two stations every cell falls when the lower one rises. C172_fails: negation of C172_full. Missing: readings that change whether the trend is dropped."
  },
  {
   "property": "C173",
   "status": "partial",
   "theorems": [
    "Verif.Precip.C173_cell",
    "Verif.Precip.C173_image_partial",
    "Verif.Precip.C173_floor",
    "Verif.Precip.C173_limits_fails",
    "Verif.Precip.C173_fails"
   ],
   "note": "C173_cell and C173_image_partial: for limits with max_scour at most min_drift, as in the defaults. C173_limits_fails: with overlapping limits a cell that becomes sheltered can lose snow. C173_floor: with the defaults every exposed cell with an upwind slope up to 15 degrees gets exactly 55 percent. C173_fails: negation of C173_full."
  },
  {
   "property": "C174",
   "status": "partial",
   "theorems": [
    "Verif.Precip.C174_windier",
    "Verif.Precip.C174_shield",
    "Verif.Precip.C174_colder_partial",
    "Verif.Precip.C174_light_fails",
    "Verif.Precip.C174_fails",
    "Verif.Precip.C174_unknown_temp"
   ],
   "note": "C174_windier and C174_shield hold for all winds and phases. C174_colder_partial: gauges without shield, and shielded gauges from 1.6 m/s on. C174_light_fails: a shielded gauge between 0.4 and 1.25 m/s is corrected more for rain than for snow. C174_unknown_temp: a station without temperature counts as rain. C174_fails: negation of C174_full. Not decided: the narrow ranges around the two crossings of the shielded curves."
  },
  {
   "property": "C175",
   "status": "partial",
   "theorems": [
    "Verif.Run.C175_dew_partial",
    "Verif.Run.C175_drop",
    "Verif.Run.C175_clip_fails",
    "Verif.Run.C175_snow_fails",
    "Verif.Run.C175_fails"
   ],
   "note": "C175_dew_partial: cells whose dew point stays below the air temperature. C175_drop: in general the dew point falls by less than 0.2 degrees or the error of the solver. C175_clip_fails: when a cell just below saturation is moistened to saturation its dew point is set to 0.2 degrees below the air temperature and falls. C175_snow_fails: rain then becomes a quarter snow. C175_fails: negation of C175_full. Not covered: the wet-bulb method."
  },
  {
   "property": "C176",
   "status": "proved",
   "theorems": [
    "Verif.WetBulb.C176_response",
    "Verif.WetBulb.C176_solution",
    "Verif.WetBulb.C176_elevation"
   ],
   "note": "C176_response: the returned values, all three inputs at once. C176_solution: the solutions of the psychrometric equation. C176_elevation: the pressures that iwbt uses at two elevations. Outside the stated range C44 does not show that the iteration ends."
  },
  {
   "property": "C177",
   "status": "partial",
   "theorems": [
    "Verif.TwoEq.C177_bounces",
    "Verif.TwoEq.C177_ground_partial",
    "Verif.TwoEq.C177_weak_fails",
    "Verif.TwoEq.C177_fails",
    "Verif.TwoEq.C177_image"
   ],
   "note": "C177_bounces: the series, with the fraction sent back from the differential equations (FromBelow). C177_ground_partial, C177_image: strong scattering, omega (4 - 3 g) > 1, which the defaults meet. C177_weak_fails: without scattering white ground gets less light than black, every depth up to 1."
  },
  {
   "property": "C178",
   "status": "partial",
   "theorems": [
    "Verif.Nasde.C178_warmer_partial",
    "Verif.Nasde.C178_amount",
    "Verif.Nasde.C178_heavy_fails",
    "Verif.Nasde.C178_fails"
   ],
   "note": "C178_amount: more precipitation, all models, strict for marks2017. C178_warmer_partial: warmer air, all models, for marks2017 up to 50 mm in a step (C81_density gives the density, then monotone in the temperature by bounds on the exponentials). C178_heavy_fails: from 1200 mm in a step on, snow at 0 degrees is lighter than at -10."
  },
  {
   "property": "C179",
   "status": "partial",
   "theorems": [
    "Verif.Thermal.C179_hot_partial",
    "Verif.Thermal.C179_jump_fails",
    "Verif.Thermal.C179_fails"
   ],
   "note": "C179_hot_partial: the published image, cells whose two temperatures are on one side of the freezing point or half a degree apart. Saturation grows no faster than the 27th power of the temperature (sat_power). C179_jump_fails: in every cell between sea level and 4000 m that sees some sky there is a temperature above the freezing point with less radiation than at the freezing point."
  },
  {
   "property": "C180",
   "status": "partial",
   "theorems": [
    "Verif.Idw.C180_plain_partial",
    "Verif.Idw.C180_trend",
    "Verif.Idw.C180_idw_partial",
    "Verif.Idw.C180_sharp",
    "Verif.Idw.C180_amplified_fails",
    "Verif.Idw.C180_fails"
   ],
   "note": "C180_plain_partial: without trend, cells without a station. C180_trend, C180_idw_partial: with trend, also where the trend is dropped in one of the runs; C180_sharp: the bound is reached. C180_amplified_fails: with trend, for every factor K and any two stations, every cell from some elevation on changes by more than K times the error."
  },
  {
   "property": "C181",
   "status": "partial",
   "theorems": [
    "Verif.Idw.C181_share_partial",
    "Verif.Idw.C181_range_partial",
    "Verif.Idw.C181_trend_fails",
    "Verif.Idw.C181_fails"
   ],
   "note": "C181_share_partial, C181_range_partial: without trend, cells without a station. C181_trend_fails: with trend, readings between -3 and 1, and a missing reading changes a cell by more than any given amount (the falling trend of three stations is dropped, the rising one of the two left is kept)."
  },
  {
   "property": "C182",
   "status": "partial",
   "theorems": [
    "Verif.Solar.C182_cloud_partial",
    "Verif.Solar.C182_albedo",
    "Verif.Solar.C182_step",
    "Verif.Solar.C182_jump_fails",
    "Verif.Solar.C182_fails"
   ],
   "note": "C182_cloud_partial: for cloud factors on the same side of 0.99. C182_albedo: in full. C182_step: at 0.99 the diffuse light jumps from 2.6 percent of the whole light to the diffuse light of the clear sky. C182_jump_fails: in an ordinary open cell no factor holds for cloud factors within any distance of each other."
  },
  {
   "property": "C183",
   "status": "partial",
   "theorems": [
    "Verif.Nasde.C183_fraction_partial",
    "Verif.Nasde.C183_density_partial",
    "Verif.Nasde.C183_piecewise",
    "Verif.Nasde.C183_table_fails",
    "Verif.Nasde.C183_marks_fails",
    "Verif.Nasde.C183_fails"
   ],
   "note": "C183_piecewise: the full claim for the piecewise model (0.75 per degree, 122 kg/m3 per degree: C183_fraction_partial, C183_density_partial). The fraction and the mass also for Marks 2017. C183_table_fails: the Susong 1999 table jumps at 0 degrees from 75 to 25 percent. C183_marks_fails: the Marks 2017 density jumps at 1 degree from at least 50 kg/m3 to zero."
  },
  {
   "property": "C184",
   "status": "proved",
   "theorems": [
    "Verif.Thermal.C184_cloud",
    "Verif.Thermal.C184_black",
    "Verif.Thermal.C184_sharp",
    "Verif.Thermal.C184_canopy"
   ],
   "note": "Two runs of Thermal.distribute that differ in the cloud factor (C184_cloud, C184_black, C184_sharp) or in the transmissivity (C184_canopy)."
  },
  {
   "property": "C185",
   "status": "partial",
   "theorems": [
    "Verif.Precip.C185_wind_partial",
    "Verif.Precip.C185_reading",
    "Verif.Precip.C185_phase_fails",
    "Verif.Precip.C185_fails"
   ],
   "note": "The bound in wind is proved within one phase with the rates 0.27, 0.34 (snow) and 0.084, 0.165 (rain) per m/s (C185_wind_partial); the factor five for the reading (C185_reading). Refuted in the temperature (C185_phase_fails, C185_fails)."
  },
  {
   "property": "C186",
   "status": "partial",
   "theorems": [
    "Verif.Albedo.C186_age",
    "Verif.Albedo.C186_sun_partial",
    "Verif.Albedo.C186_horizon_fails",
    "Verif.Albedo.C186_published",
    "Verif.Albedo.C186_litter",
    "Verif.Albedo.C186_fails"
   ],
   "note": "Age: C186_age, C186_published, C186_litter (litter rate below 1). Angle: C186_sun_partial on one side of the horizon; refuted across it (C186_horizon_fails, C186_fails)."
  },
  {
   "property": "C187",
   "status": "partial",
   "theorems": [
    "Verif.Wind.C187_slope_partial",
    "Verif.Wind.C187_flat",
    "Verif.Wind.C187_station",
    "Verif.Wind.C187_reading",
    "Verif.Wind.C187_gap_fails",
    "Verif.Wind.C187_level_fails",
    "Verif.Wind.C187_fails"
   ],
   "note": "Readings and flat wind: C187_station, C187_flat, C187_reading. Slope: C187_slope_partial within a class; refuted at the class boundaries and at level ground (C187_gap_fails, C187_level_fails, C187_fails)."
  },
  {
   "property": "C188",
   "status": "partial",
   "theorems": [
    "Verif.Precip.C188_precip",
    "Verif.Precip.C188_wind_partial",
    "Verif.Precip.C188_slope",
    "Verif.Precip.C188_temperature_fails",
    "Verif.Precip.C188_shelter_fails",
    "Verif.Precip.C188_fails"
   ],
   "note": "Precipitation: C188_precip. Wind: C188_wind_partial. Slope: C188_slope. Refuted for temperature and shelter (C188_temperature_fails, C188_shelter_fails, C188_fails)."
  },
  {
   "property": "C189",
   "status": "proved",
   "theorems": [
    "Verif.Dewpoint.C189_dew_point",
    "Verif.Dewpoint.C189_limited",
    "Verif.Dewpoint.C189_cold"
   ],
   "note": "Two runs of the dew-point solver of C43; C189_dew_point for the whole range, C189_cold below freezing, C189_limited for the limit by the air temperature."
  },
  {
   "property": "C190",
   "status": "proved",
   "theorems": [
    "Verif.ReadingDew.C190_plain",
    "Verif.ReadingDew.C190_trend"
   ],
   "note": "Composition of C180 (distribution), the limits, C189 (root finder) and the limit by the air temperature in the model of vapor_pressure.distribute; the solver is any that returns what the search of dewpt.c ends with."
  },
  {
   "property": "C191",
   "status": "proved",
   "theorems": [
    "Verif.Thermal.C191_exact",
    "Verif.Thermal.C191_view",
    "Verif.Thermal.C191_unused",
    "Verif.Thermal.C191_marks"
   ],
   "note": "Two runs of the thermal step; C191_exact and C191_view for the three Python methods, C191_marks for the C routine, C191_unused without terrain correction."
  },
  {
   "property": "C192",
   "status": "partial",
   "theorems": [
    "Verif.Thermal.C192_vapor_partial",
    "Verif.Thermal.C192_dry_fails",
    "Verif.Thermal.C192_fails"
   ],
   "note": "Two runs of the thermal step for vapor pressures from the default minimum of 20 Pa. Missing: the clouds of Kimball, which read the vapor pressure too; fails with the method of Dilley near 0 Pa (C192_dry_fails)."
  },
  {
   "property": "C193",
   "status": "proved",
   "theorems": [
    "Verif.Thermal.C193_dew",
    "Verif.Thermal.C193_one_side",
    "Verif.Thermal.C193_unused"
   ],
   "note": "Two runs of the thermal step; C193_one_side without, C193_dew with the freezing point in between, C193_unused for the other methods."
  },
  {
   "property": "C194",
   "status": "proved",
   "theorems": [
    "Verif.Thermal.C194_temperature"
   ],
   "note": "Two runs of the thermal step with the same vapor pressure. The method of Marks jumps at freezing (C179) and is not part of the claim, nor are the clouds of Kimball."
  },
  {
   "property": "C195",
   "status": "proved",
   "theorems": [
    "Verif.Thermal.C195_weather"
   ],
   "note": "C184, C192, C193 and C194 along a path of runs in which one input changes at a time."
  }
 ]
}