{
 "C01": "All call sequences of one queue, every capacity and timeout.",
 "C02": "All call sequences.",
 "C03": "All call sequences.",
 "C04": "The full claim is false for non-blocking calls (errors are swallowed and None is returned / the item is dropped); proved for blocking calls. C04_nonblock_partial says exactly what the non-blocking calls do.",
 "C05": "The full claim is false (timeout of one call persists for later calls; put ignores its timeout argument); proved what holds of a timed get.",
 "C06": "All schedules, capacities, numbers of dates and thread bodies; equality with the serial loop on the same bodies.",
 "C07": "All schedules and capacities of well-formed networks.",
 "C08": "All schedules and capacities of well-formed networks; explicit bound on the length of executions.",
 "C09": "Proved for the configurations in `Supported`; false in general: output frequency > 1, a solar correction switched off, or winstral rescaling without the winstral wind model leave the run stuck (C09_*_fails). Missing from the full claim: exactly those configurations.",
 "C10": "Values agree for every schedule when precipitation is not rescaled with winstral; with winstral the drivers pass different wind fields (C10_wind_argument_fails). Output sets agree exactly when all requested variables are thread variables (C10_outputs_fails).",
 "C11": "Holds for queue_max_values = 1; false for the default 2 (C11_fails: storm_days is published by reference and updated in place).",
 "C12": "Steps that are multiples of the frequency are written, once, in order, by both drivers. False as stated: the last step is not written unless it is a multiple (C12_last_step_fails).",
 "C13": "All write histories; false when the float32 time coordinate rounds two dates together or a date away from itself (C13_rounding_fails), proved when the stored coordinate is exact. The comparison of times is in double precision as in numpy 2; for single precision (numpy 1) and for the actual rounding see C126.",
 "C14": "False for NaN cells outside the mask (NaN * 0 is NaN, C14_nan_fails); proved for defined cells.",
 "C15": "All requested lists and module sets.",
 "C16": "All grids, any ordered number type; limits may be infinite; NaN cells explicit; behaviour with crossed limits also characterised (C16_crossed).",
 "C17": "All dates of the proleptic Gregorian calendar.",
 "C18": "All years and days; the error branch is explicit.",
 "C19": "All start/end/step.",
 "C20": "All station tables.",
 "C21": "Any dimension; the triangulation's transform is assumed to be the inverse of the edge matrix of the simplex (IsTransform), nothing is assumed about which simplex qhull returns.",
 "C22": "False: the configured list is replaced by the None returned by list.sort(), so every station is used (C22_list_ignored_fails). Proved: the unset case, and correctness of the selection once the list is not lost.",
 "C23": "All rectangular tables (NaN cells included), thresholds and step limits. Time stamps are row numbers; C23_timestamps shows stamps are only copied.",
 "C24": "Exact characterisation: same storm iff no dry spell of n steps between; also the exact end of each storm.",
 "C25": "False: a station whose whole precipitation falls outside the storms loses it (C25_total_fails). C25_total_iff characterises exactly when the total is kept; removal outside storms and proportionality hold in full.",
 "C26": "All sequences of images, initial counters and step limits.",
 "C27": "False: the clock advances by 1 per step whatever the step length, precipitation is not accumulated, and a cell keeps being reset while it snows elsewhere. Proved: exact step behaviour and step counting.",
 "C28": "All runs.",
 "C29": "All images, NaN included.",
 "C30": "All temperatures and thresholds.",
 "C31": "False in two places: with check_temps=False the density is never bound, and dry cells get a density of at least 50 (C31_fails). Bounds and monotonicity proved for the checked path.",
 "C32": "False: seven names share one array, so the compaction uses the value written by the later formula (C32_fails). The SWE identity and the bounds that hold are proved.",
 "C33": "False in calm air: the fitted curves exceed 100 percent and reduce the reading (C33_fails). Positivity, monotonicity, rejection of unknown gauges and unchanged stations hold in full; correction never reduces for wind of 0.5 m/s and more.",
 "C34": "Two failures: the cubic uses a in place of d (C34_cubic_fails) and NaN cells get 0 (C34_nan_fails). Bounds, warm cells, sign and locality hold in full. C34_drift_shape: value in calm air, ratio between two winds, more wind more drift above 1.654 m/s.",
 "C35": "False: with station data, a model other than marks2017 and no undercatch correction nothing is ever published (C35_stale_fails, for every run). All other configurations proved.",
 "C36": "Well defined and non-increasing in storm age, strictly inside (0,1] / (0,1) for accepted parameters, at least the base (sun-down) value with sun on the terrain, published values within configured limits.",
 "C37": "Config checks modelled branch by branch. The dirt check can never be true (C37_dirt_fails); the other checks hold.",
 "C38": "Value, shape and monotonicity hold for positive class maxima; a zero maximum raises ZeroDivisionError (C38_zero_class_fails).",
 "C39": "Weighted mean, movement toward the litter albedo and the limit hold for all inputs.",
 "C40": "Dew point limiting holds for every cell, NaN cells included.",
 "C41": "Positivity and monotonicity (across the jump at freezing, up to 1000 K) hold; the Python wrapper accepts 0 K (C41_zero_kelvin_fails).",
 "C42": "The unit is decided by the first element only, so mixed arrays convert wrongly (the two _fails theorems); conversion and order hold once the unit is right.",
 "C43": "Brent bracket invariant for every run; a bracket is found for 0<e<=1.5 sea-level pressure; the loop never needs more rounds than maxfun, for any function (C43_converges, Brent's worst-case bound), so the solver returns a value (C43_found), which from 20 Pa up, the default lower limit, is the dew point to within twice the tolerance (C43_range_partial). Below that range the full claim is false: early acceptance compares a pressure with a temperature tolerance (C43_early_fails); e=0 never ends. Tolerance at least 1e-4. C43_better_end: of the two ends of the bracket the better one is returned. C43_interpolation: a step that is not a bisection goes to the root of the secant or of the inverse parabola.",
 "C44": "At most ten rounds, and the signed last correction is within the tolerance. C44_returns_partial: for air up to 320.2 K, dew points from 199 K up, at least 50 kPa and tolerances from 7 mK to 1 K the loop returns within ten rounds, the psychrometric equation changes sign within max(tolerance, |last correction|) of the result, and the result lies between dew point and air temperature up to the same distance. The test is not on the absolute value, so upward steps are always accepted (C44_upward_fails).",
 "C45": "Non-negativity proved for strong scattering (omega(4-3g) > 1) and non-resonant sun angles. The balance itself is false: toporad's beam image already contains the diffuse one, so calc_net adds diffuse radiation twice (C45_net_partial gives the exact value, C45_step_fails the excess of a whole step).",
 "C46": "Night steps: every output is zero in every run. With the sun up everything is computed only when both corrections are on (C46_day_partial); with a correction off the corrected variables keep whatever the last night left, or do not exist (C46_correction_off_fails).",
 "C47": "All cloud factors in [0,1] and radiation values, both cutoffs.",
 "C48": "All sun angles, heights, extinctions and transmissivities; also for the whole veg_correct step.",
 "C49": "All parameters in the stated ranges; the series beta_0 is modelled with its loop and its no-convergence branch.",
 "C77": "Proved for strong scattering (omega(4-3g) > 1) at non-resonant sun angles, given that the series beta_0 converges (C77_physical_partial); without these two hypotheses for asymmetries up to 1/3 and single-scattering albedos from 3/4 up to one, among them the defaults 0.3 and 0.85 (C77_default, in BetaProps). False at resonance (division by zero), at vanishing backward coefficient, and for weak scattering over bright ground, where the negative diffuse flux passes the assertions.",
 "C50": "All values; also for the images a step publishes.",
 "C51": "Full for Unsworth and Crawford (clear-sky value at most black-body emission; otherwise C51_above_black_body_fails). Garen is 0.3 percent low without cloud; Kimball ignores the cloud factor, corrects the clear sky, and reduces radiation in warm humid air.",
 "C52": "False: the module uses degrees Celsius to the fourth power, so below zero the terrain part falls with rising temperature; C52_celsius_partial says exactly when the claim holds.",
 "C78": "Marks, Prata and Angstrom for all inputs; Dilley exceeds black-body emission below -90 C. C78_angstrom_shape, C78_prata_shape, C78_dilley_shape: the values of a dry sky and how the radiation goes with vapor pressure and temperature.",
 "C79": "Same value wherever both temperatures and the sea-level temperature are above 0 K; otherwise exit versus NaN, except for a dew point of exactly 0 K.",
 "C80": "All configurations except marks1979 without terrain correction, which always fails.",
 "C53": "Exact arithmetic with infinities and NaN explicit. Defined, between the extremes, order and affine claims hold for cells away from every station; at a station's own cell the zero distance is replaced by the minimum, which is zero, and the result is NaN.",
 "C54": "np.polyfit is a parameter constrained to be a least-squares line; closedForm_least shows the constraint can be met. zeros=None as in every call of the code.",
 "C81": "Dispatch of phase_and_density on the configured model name, with the range of percent snow and the density each model gives.",
 "C55": "Sequence of calculate calls on one object equals recomputation from scratch, for any gaps.",
 "C56": "Termination, equations, sum to one, uniqueness, elimination order and exactness at a station are proved; stations at different places never stop the process (Euclidean distances are of strictly negative type). Fails: a negative weight is kept when the station is not above sea level, and two stations at one place end the process with exit(0).",
 "C57": "Partial: solves for non-negative right-hand sides (the kriging case) and detects singular matrices exactly. Fails for negative right-hand sides because of the test sum > 0.0.",
 "C58": "Range, components, round trip, and: directions within a half circle average to a direction between them. Exact arithmetic, so a float result of exactly 360.0 by rounding is outside the model.",
 "C59": "Cells: nearest direction of the library and successful look-up for every number of directions. Stations agree when the step is a whole number; fails for e.g. 48 directions, where int() cuts 7.5 to 7.",
 "C60": "Partial: documented factor except at the four class boundaries, where the wind is zero.",
 "C61": "Partial: own data without a list of peaks or when all stations are in it. Fails: with a list, other stations reuse the value of the station before them, or stop the program.",
 "C82": "Partial: within each slope class. Fails across 21.3 degrees.",
 "C83": "Partial: up to 30 degrees. Fails beyond, where stations and cells use different constants.",
 "C84": "Proved for distinct classes, as the keys of a dictionary are.",
 "C62": "The walker's invariant (error term equals the scaled distance from the ideal line) is proved for every start and end that fit in a C short: each cell is within half a cell of the ideal line, each step moves one cell, the end is reached after exactly max(|dx|,|dy|) steps. Partial: find_line stores at most 500 cells, so longer lines never reach their end (C62_cut_fails).",
 "C63": "The python walker: the same specification is proved for every pair of cells that is not steep with mixed orientation; those pairs give an empty path (C63_empty_fails is an iff).",
 "C64": "C64_attained: the search ends and reports the slope to one of the points. C64_bound_partial / C64_exact_partial / C64_python_partial: on straight profiles it is the maximum up to instrument height over spacing, exactly the maximum with the instrument on the ground; C64_row_partial carries this through the line walker and the arrays for rows. C64_ray_partial: the same for all rows, columns and diagonals and any height. The full claim is false: C64_height_fails (instrument above ground), C64_bent_fails and C64_python_fails (cells of an oblique line).",
 "C85": "Arrays filled by calc_maxus hold exactly the part of the line inside the grid, for all end cells (also where the short variables of the line walker wrap around); no uninitialised memory is read, all reads are in bounds.",
 "C86": "Zero for instrument above the ground (the division gives -inf, -90 degrees, replaced by 0); NaN with height 0 (0/0), C86_ground_fails. C86_kept: values of slopes above -57 are not replaced.",
 "C65": "C65_window_partial: for windows whose half is a multiple of the increment, the directions taken are exactly those within half a window around the circle, except direction 0 seen from windows reaching 360; C65_mean_partial carries this to the averages written. Negations: C65_north_fails (direction 0 missed), C65_misaligned_fails / C65_nan_fails (half window not a multiple of the increment: every average is NaN).",
 "C66": "The log-law factor is positive for every vegetation height, NaN included; antitone in vegetation height; 1 at the simulation's roughness; interpolated speeds stay between the corner speeds. Partial: filling the edges extrapolates linearly and can give negative speeds (C66_edge_fails).",
 "C87": "The far end is within half a cell of the point dmax away in the wind's azimuth for grids whose rows go south; with rows going north the search is mirrored (C87_rows_north_fails).",
 "C88": "Filling removes every NaN, leaves data alone, continues planes, and succeeds when NaN are along the left and bottom edges. With NaN elsewhere in the first row it raises (C88_right_edge_fails).",
 "C89": "The array is limited in place, so the thread's reference to the wind model's array sees the limits.",
 "C67": "rotate returns a value in [-1,1] for all inputs it accepts; it is the scalar product of sun and zenith and the azimuth is counted from south towards east. Exact real arithmetic.",
 "C68": "Fails for latitudes between 90 and 360 degrees: M_PI_2 is 2*pi. Proved: all valid positions accepted, and the exact set of rejected ones.",
 "C69": "Unique solution, contraction, termination, accuracy, and every date of the years 1 to 9999 has a nonzero anomaly (3-adic argument), so the ephemeris has a value.",
 "C90": "For every valid date 1900..9999 and every place no check of the sun position fails; hour angle modulo full turns.",
 "C91": "Position on the ellipse and ellipse equation, everywhere except the aphelion itself (tangent undefined).",
 "C92": "Equatorial coordinates of the sun, everywhere except the solstices (tangent undefined) and the autumn equinox, where the model of the code gives 0 instead of 180 degrees (theorem C92_autumn_equinox).",
 "C93": "Proved for 1900..2100; off by one from 2101 to 2200 and in 1897.",
 "C94": "Years 1900 to 2100; the perturbation terms are only bounded, not compared with a reference; solstices, aphelion and autumn equinox excluded where the tangent is undefined.",
 "C70": "A missing variable silently takes the data of the image before it; only a missing dem is an error. Proved for files with all variables, and exactly what happens otherwise.",
 "C71": "argmin of the distances along one axis. A station without a coordinate (NaN) gets pixel 0.",
 "C72": "Running totals to hourly values, for series of any length with missing values.",
 "C73": "The direction is measured counterclockwise from east, the distribution step takes it as an azimuth: the components are exchanged. Proved: exactly this exchange; right for diagonal winds only.",
 "C74": "Radiation ratio to cloud factor, whole series and single time steps by induction over the steps. One missing cell in the first step makes all cells clear sky.",
 "C75": "The row counter is shared by all variables. Exact content of every file for all numbers of variables and frequencies; the claim holds for one variable written at each step.",
 "C76": "Through the configuration (names converted to capitals). The time index is taken to be increasing. Names given to the loader directly in small letters are not found.",
 "C95": "Cell size from the axes and centre of the basin from the mask.",
 "C96": "Mean over the cells of a unit, NaN left out, and the two unit conversions; output format (three digits) not modelled.",
 "C97": "Prefilter of the tables and selection of a row. Wind models of their own class keep all stations of the metadata: a station without wind stops the run.",
 "C98": "Proved for the mask variant; the local variant is partial: it fails with method nearest (no value is returned) and ignores the second of two cells at the same place.",
 "C99": "Proved for idw, grid, and kriging or dk where their code agrees; kriging ignores detrend_slope and dk always detrends.",
 "C100": "Proved below 44.3 km.",
 "C101": "Proved for horizons at or above the horizontal; the code takes the absolute value, so a cell that looks down is shaded.",
 "C102": "Proved for the dates 1900 to 9999.",
 "C103": "Proved for one-dimensional and two-dimensional coordinates.",
 "C104": "Proved for whole numbers of units and for UTC; fractions of a unit are cut off and WRF runs in another time zone stop.",
 "C105": "Proved for runs whose first two steps are in daylight; the first step of a threaded run is not checked and its memory starts at the second.",
 "C106": "Proved when the list of measurements and the station list have the same stations in the same order; otherwise the values go by position, a single value goes to all stations, and other lengths raise an exception. The limits of the wind are applied afterwards.",
 "C107": "Every missing cell gets a value between two values of the field whenever the field has a value. Between the neighbours in row-major order is proved for cells in rows without any value; np.interp is called with row indices only, so a missing cell in another row gets the last value of its row.",
 "C108": "Proved for wind and albedo; the keys for precipitation are all stored under the word veg, so redistribution with a configured class stops with an exception.",
 "C109": "Proved for marks2017 with output at every step and a file that reaches the start date.",
 "C110": "Search, numbering and absence of exceptions are proved in full; the total is proved for storms that start with a cell below 2 degrees. A storm that starts with rain keeps the total of an earlier storm. The mass leaves out steps below the threshold.",
 "C111": "A statement (with the functions it calls) is one step; the five loops are instances of a theorem about loops whose bodies write private variables only. Runs are shown to end and to be extendable until they end.",
 "C112": "Inside the grid of the file the direction lies between the angles of the corners if these span less than half a turn and do not cross north. Negation: outside, components are extrapolated, north wind beside east wind gives a wind from the north-west. The triangulation is a parameter.",
 "C113": "Heads of six lines in any order. Negation: without the optional NODATA_value line the first row is lost and all values move a row north; a head with the centre of the lower left cell is never read.",
 "C114": "C114_name: the folder carries the day of the clock of SMRF and the file the day, hour and minute of the clock of WindNinja. Which clocks give the same file is characterised exactly; the claim follows if the time zone of WindNinja has one offset. Negation: the hour repeated at the end of summer time reads the same file twice.",
 "C115": "Holds where the latitude along a row and the longitude along a column vary by at most the buffer of 0.1 degrees. Negation: the box is made from two opposite corners, so a wide domain away from the meridian of the zone loses another corner.",
 "C116": "The tables are complete (loading is idempotent, so a table written without offsets is loaded unchanged). Negation: the metadata are written without the name primary_id and reading them always fails; the times are written with offsets and tz_localize always fails; a run without one of the six variables cannot be copied.",
 "C117": "Exact characterisation of the choice. Negation of the last part: a directory without a configuration raises IndexError instead of the message.",
 "C118": "Proved for sizes whose products nsta*nsta and ngrid*nsta fit in an int. Negation: i*nsta overflows for larger grids (undefined behaviour). Without a station with data the process ends with exit. The solver alone is not safe (NaN in the first column leaves imax without a value); the row of ones of the kriging matrix makes it safe. Failing malloc for positive sizes and the threads (C111) are left out.",
 "C119": "Proved also where the short variables of the line walker wrap around: the cells of the grid always come first in the line. The bound on the number of cells is sharp (C119_limit). Threads: C111.",
 "C120": "Proved for fewer than 2^31 cells. Negations: the number of cells is cut to 32 bits without notice (65536 by 65536 cells: nothing is calculated); the number of cells is taken from the first array only and the shapes are not compared, so that a smaller second or third array is read outside its memory.",
 "C121": "Proved for air temperature, vapor pressure, cloud factor and thermal, and for the others outside the cases that fail. Negations: the rescaling of precipitation by the wind reads `tbreak_threshold`, an item that no section has; the Winstral wind model (the default) with gridded data reads `maxus_netcdf`, which the recipe for gridded data removes; WindNinja with stations, if one trigger of a recipe is enough; the decay by dates without dates. The rules of the package inicheck are assumptions (header of Items.lean); only the presence of items is proved, not that a value such as a file name is usable.",
 "C122": "C122_formula_partial: with the instrument on the ground the break is the claimed difference where it is negative, else zero, because the outer search begins at the cell itself; C122_edge, C122_height_partial: with an instrument it is at most the angle of its height over one step; C122_drift_fails: with 2 m, cells of at least 17 m and the threshold of 7 degrees no cell is ever a drift cell. C122_cardinal: the ends of the searches for the four winds; C122_guard: what is accepted; C122_guard_rows_fails: the spacing of the rows is not looked at. Missing: oblique directions, values set to zero by a slope below -57 (NoCliff).",
 "C123": "C123_localize, C123_rows, C123_steps: instants of rows and steps. C123_record: which step a record holds; C123_records_partial: one record per step if the clock is not put back. Negations: C123_autumn_fails (every step before the clock is put back loses its record, for any zone whose change is a multiple of the step), C123_decay_shift_fails (the dates of the decay use the first offset of the zone, usually the local mean time), C123_names_fails (the water day takes the abbreviation for the name of a zone: PST, PDT, MDT end the run), C123_water_day_shift_fails. C123_decay_partial, C123_water_day_partial, C123_names: exactly when these are right. The rules of pandas and pytz are assumptions (header of Zone.lean).",
 "C124": "C124_points, C124_continuous, C124_sum, C124_bands, C124_dates, C124_defined: the spectrum goes through the table, bands add up, the two bands of the model have 617 and 671 W/m2 and are defined on every date. C124_positive_partial: positive for all bands up to 60 micrometres. Negations: C124_negative_fails (below zero beyond 100 micrometres, outside the bands in use), C124_constant_fails (the whole table makes 97.4 percent of the solar constant). The interpolation of scipy is an assumption, the quadrature is taken as exact.",
 "C125": "C125_in_range: whenever a run of any length ends without an abort, all images are in their limits, dew point below air temperature, precipitation physical, night zero. C125_no_abort_partial: with a sound configuration the run ends, with the dew-point or (tolerance from 7 mK, at least 20 Pa, air between -73.96 and 47 degrees, ground up to 5500 m) the wet-bulb method (missing: sun angles at which the two-stream model fails, wet bulb outside these conditions). C125_radiation_partial: all solar images written are not negative. C125_defaults_partial: the same with the numbers of CoreConfig.ini. Negations: C125_precip_max_fails (redistribution by wind after the limit), C125_albedo_night_fails (night albedo 0 below a positive minimum), C125_fails.",
 "C126": "C126_apart, C126_order, C126_records: up to 2^18 hours (29.9 years) from the start date of the file different minutes have different, ordered times and, compared in single precision (numpy 1), one record each with the latest value. C126_exact, C126_decode, C126_restart_partial: exact, and found by a restart, exactly for whole quarters of an hour. Negations: C126_restart_fails (any other start date is not found and the storm clock starts at zero), C126_double_fails (compared in double precision, as numpy 2 does, every rerun adds a record), C126_collision_fails (minutes collide beyond 2^18 hours), C126_fails. C126_rounding: the rounding is the nearest number of the format, ties to even.",
 "C127": "C127_linked: all relations between the published images, by induction over the run. C127_dew_partial: the dew point in terms of the saturation curve, from 20 Pa up. C127_wet_partial: the precipitation temperature of the wet-bulb method solves the psychrometric equation of the published air temperature and dew point. C127_dry_spell: the storm clock over a dry run of any length. C127_phase: the snow images.",
 "C128": "C128_header, C128_latest, C128_sorted: for all sequences of runs with grids of one shape and steps within 2^18 hours. C128_read_partial: a reader finds the latest image of each instant, if all zones have one offset. Negations: C128_zone_fails (a run in another zone is read as other instants), C128_grid_fails (other coordinates of the same shape are written without notice), C128_shape_fails (a run on another shape aborts and leaves a record of fill values), C128_fails.",
 "C129": "C129_files, C129_abort: by induction over the run, from the model of the whole time step (C125) and of the time variable (C126), up to 2^18 hours. C129_in_range: the ranges of C125 in the files. The requested variables must exist as attributes when written (otherwise the run raises an exception, modelled); wind variables other than speed, storm totals and soil temperature are not among the images modelled.",
 "C130": "C130_serial: exactly the only row of the date in the period, otherwise an exception. C130_threaded_partial: the same for the data queue of the C01 model, for increasing dates; with a time-out a missing date ends the run. Negations: C130_hang_fails (without a time-out, the default, a missing date or variable makes the threaded run wait for ever), C130_duplicate_fails (a doubled date gives a frame in the serial run and the last row in the threaded run), C130_fails.",
 "C131": "C131_complete: the finished library holds every direction with its image. C131_lookup_partial: for increments that divide 360 the cell gets the slopes of a nearest direction, for every azimuth. C131_windowed_partial: the same through the windower, for directions whose window does not reach north (C65). C131_names: the windowed file has another name. Negations: C131_increment_fails (every other increment below 360 has an azimuth for which no image is found and the run aborts), C131_interrupted_fails (an interrupted script leaves a file with all directions and the full shape, and fill values for the images not reached), C131_bare_fails (an output name without a directory is refused), C131_flag_fails (--make_tbreak False switches the option on), C131_fails.",
 "C132": "C132_images_partial: what the threads publish are the images of the serial run of the same modules. C132_completes_partial: every reachable state can go on to the end, no deadlock. C132_files_partial: at the end the files are those of the serial run. C132_records_partial: what these files hold. Missing: winstral redistribution of precipitation (C10_wind_argument_fails) and steps that raise. Negations: C132_frequency_fails (an output frequency above 1: the threaded run never ends), C132_corrections_fails (cloud or vegetation correction off: the threaded run never ends), C132_fails (a job whose serial run ends).",
 "C133": "C133_asked_partial: on metadata without the column every station gets what is asked for it, for any order. C133_case: names that differ in case get the same. C133_loaded: the names of the file reach the section unchanged up to case. C133_flat_partial: the enhancement asked is the one used in the slope and flat wind of the station. Negations: C133_option_fails (a station named like a numeric option, e.g. MAX, gets the value of the option), C133_abort_fails (one named like an option that is no number ends the run), C133_again_fails (once the column exists, even after an exception, no section is looked at any more), C133_numbers_fails (stations with numbers for names cannot be loaded), C133_fails.",
 "C134": "C134_partial: coordinates on (y, x), UTC, a record between the dates. C134_refused: other time zones, or no record between the dates, are errors. C134_cloud: the cloud factor is in [0, 1]. Negations: C134_timed_fails (coordinates on (Time, y, x), as WRF writes them: the station at the place of cell (y, x) has the name and values of cell (t, y)), C134_long_fails (such a file with more records than rows cannot be loaded), C134_twice_fails (such a file gives stations of the same name), C134_fails.",
 "C135": "C135_netcdf_partial: netCDF files for every request without 'all'. C135_defaults: the default request. C135_type: other file types are refused. Negations: C135_all_fails ('all' adds nothing to any request), C135_hru_fails (no run with HRU output gets beyond its first step: the writer has no variable_dict), C135_fails.",
 "C136": "C136_serial: the serial run ends with the exception. Negations: C136_hang_fails (no time-out, the default: main never leaves its joins), C136_silent_fails (with a time-out the run ends and main returns normally, the variable missing from that date on), C136_slow_fails (a time-out alone can do that without any exception), C136_network_hang_fails (every configuration of SMRF), C136_fails. What does hold: C136_missing (nothing more from the dead module), C136_stops_near (other modules stop within the capacity of their queue), C136_values (everything published is what the serial run computes), C136_bounded and C136_settles (every run comes to a standstill), C136_before and C136_network_before (without a time-out the dates before the accident are finished), C136_timeout_progress, C136_timeout_ends and C136_network_timeout (with a time-out every run ends, also in the configurations in which C09 fails), C136_network_output (no record of the date of the accident or later is finished).",
 "C137": "Proved of the loops: C137_prefix, C137_steps, C137_files (serial run, images and records), C137_threaded (any two threaded runs that behave alike up to a date), C137_cloud_steps and C137_wrf_precip (loaders), C137_cloud_day, C137_storms (storms of a longer record: finished ones unchanged, the last one may go on, others later), C137_clip (the precipitation kept). Negations: C137_drizzle_fails and C137_fails (marks2017: the correction factor is taken over the whole period, later drizzle raises earlier precipitation), C137_cloud_fails (the HRRR cloud factor of the night is interpolated to the next morning). What holds there: C137_factor_partial (one factor per station), C137_nodrizzle_partial (no drizzle outside the storms: no dependence), C137_cloud_night (dependence reaches to the next daylight time only).",
 "C138": "The full claim (C138_full) is false: C138_fails is a run over two cells with default models in which a dry cell's days since the last storm differ. Causes: C138_storm_fails (timeSinceStorm counts the day only if it snows nowhere in the domain), C138_percent_fails (marks2017: snow percentage of dry cells), C138_sun_fails (two-stream model with the mean albedo of the domain: a part that is darker on the average gets strictly less diffuse light). Proved: C138_run_partial (everything, if the part represents the domain in every step: it has a cell with precipitation, snow, cold precipitation if the domain has one and, by day, the same mean albedos), C138_renumber (any renumbering of the cells, unconditional), C138_air and C138_precip (air temperature, vapor pressure, dew point, precipitation temperature, wind, cloud factor, thermal radiation, precipitation: any part, any states).",
 "C139": "The full claim about the kriging weights (C139_full) is false: C139_fails, by C139_tie_fails (five stations of one elevation at different places: of the stations with negative weight the first one listed is dropped first; with two stations exchanged one of them gets the weight 0 instead of 1/1639). C139_pixel_fails: of two stations in one pixel the wind of the last one listed counts. Proved: C139_idw (every order, every cell, all gaps), C139_detrended_partial (data at two elevations at least), C139_weights_partial (stations above the sea have different elevations), C139_kriging_partial (a run of detrended kriging over any number of steps with gaps: same images), C139_wind_partial (every station in a pixel of its own).",
 "C140": "The full claim about the kriging weights (C140_full) is false: C140_fails, by C140_sea_fails (three stations, heights counted from a level 100 higher: a station now below zero keeps the weight -1/7, before it has none below 0). Proved: C140_idw (every change of frame, every exponent, every cell, all gaps), C140_detrended_map and C140_kriging_map (another map; any fit, stations also at one place or at one elevation, the process ends in one frame exactly if in the other), C140_detrended_partial and C140_kriging_partial (also heights; data at two elevations at least, for kriging every station on the same side of zero), C140_data_partial (kriging and the unit of the data; data at two elevations at least; IDW: C53_affine_partial).",
 "C141": "The full claim (C141_full) is false: C141_fails, by C141_coordinates_fails (krig_coordinates_type is read but not passed to pykrige: with geographic the estimate is that of plane coordinates). Proved: C141_image_partial and C141_run_partial (image and variance of a step, images of a run; coordinates euclidean), C141_affine (data affine in the elevation at two elevations at least are reproduced, every estimator that is a weighted sum of the values), C141_gaps, C141_no_data.",
 "C142": "The full claim (C142_full) is false: C142_fails, by C142_accident_fails (default asymmetry 0.3: at the zero of the third polynomial, square of the cosine 3/5, the sum stops with the first term, error above 3e-5) and C142_silent_fails (g = 1, sun overhead: the loop runs out, the warning is dead code, result above 1/128). Proved: C142_recurrence and C142_unique (the polynomials of the recurrence are the Legendre polynomials, defined by degree, orthogonality and value at one), C142_sum (a result is half of one minus a partial sum of the series, with the degree at which it ends), C142_error (bound of the error against the integral), C142_isotropic (exact for g = 0), C142_succeeds (for g <= 1/3 a result for every sun, at most degree 41), C142_valid (with g <= 1/3 and omega >= 3/4 the parameters are those the theorems on solar radiation and the run ask for, at every sun).",
 "C143": "The full claim (C143_full) is false: C143_fails; a configuration with errors (C143_refused_fails), several configuration files (C143_several_fails) and a missing file (C143_missing_fails) end by sys.exit() without argument, status 0. Proved: C143_status_partial (for one configuration file without errors: status 0 exactly if carried out, else 1), C143_carried_out (loader and flags), C143_constructor (accepted exactly if acceptable), C143_future, C143_written, C143_empty, C143_can_run (can_i_run_smrf never returns False). C143_both_fails: with both data sections, which the recipes exclude, dates are checked as for gridded data while stations are read. The phases are parameters. C143_argument: calls from python without a file are refused before any effect.",
 "C144": "Proved: C144_cell, C144_order (two orders of stations or additions), C144_trend, C144_double (double precision, power 2), C144_nearest (rounding to the nearest has the relative error assumed), C144_range (within the range of the data up to rounding). The last sentence of the claim (C144_full) is false: C144_fails, three stations with 0.1 around a cell give 0.10000000000000002 in double precision. No overflow, underflow, infinities or NaN in this model (Idw has infinities and NaN without rounding); np.polyfit is not modelled, the trend is any two numbers.",
 "C145": "Proved: C145_same_partial (tables with the same labels in the same order, humidity in percent and at least 1 in the first place, see C42): all six tables. C145_label: air temperature, precipitation and wind speed go by labels whatever the order; what the table does not have is NaN. C145_time: a time the zone does not have or has twice ends the run. The full claim is false: C145_fails (vapor pressure goes by position: humidity with its cells in another order is taken from other cells without an error), C145_direction_fails (direction by position in pandas before 2.0, speed by label). weather_forecast_retrieval, pd.to_numeric and the repetition of single rows by numpy are not modelled.",
 "C146": "C146_table: the Horner expressions are the table of Meador and Weaver (g below one; at g = 1 the code has a special case without omega, not covered). C146_solution: a solution of the boundary value problem exists and every solution has the reflectance and transmittance of the code. C146_thick: the shortcut for thick layers. C146_inside, C146_energy: fluxes not negative, no light created. C146_default: the parameters of the configuration, every sun above the horizon, in terms of the beam and diffuse light passed on. Conservative scattering (omega = 1), where the code perturbs gam1, is excluded; rounding is not modelled.",
 "C147": "C147_exists: fields with a linear variogram exist for any stations and cell (distances are of negative type). C147_error: the mean square error in terms of the distances. Proved: C147_used_partial, C147_estimate_partial (best, and the only best, among weights of the stations in use), C147_best (if the best weights are not negative they come back), C147_all (if no weight is zero they are best of all). Missing and false (C147_fails): stations with a negative weight are dropped, which gives worse weights. Whether the weights are the best non-negative ones is not claimed: in a floating point search outside the model (not proved; stations and cell at random points of a 13 by 13 lattice, 20000 placements for each number of stations, every order of dropping tried, so for some choice of elevations) the rule missed the best non-negative weights in 0 placements with three and with four stations, 4 with five and 14 with six.",
 "C148": "True: C148_slope (no nugget: every slope gives the weights of the distances, or both end the process), C148_line_partial (also with a nugget, if it is counted at distance zero as well). False: C148_fails (a semivariogram with a nugget that is zero at distance zero gives other weights), and C148_only (two nuggets give the same weights, none zero, at a cell off the stations only if all weights are equal). C148_near_fails: a station keeps a quarter of the weight at any distance.",
 "C149": "C149_running, C149_since: bounds by induction over the steps. C149_double: double precision (rounding to nearest with 53 digits, exponent without limits). C149_day: last_storm_day, from the conclusion of C149_double. C149_ticks: the clock does not stand still while u times its value is below the step. C149_exact: without rounding the model is that of C28.",
 "C150": "Full claims C150_full and C150_albedo_full are false: C150_fails (susong1999_timesteps_to_end_storms is never read and marks2017_timesteps_to_end_storms acts in its place), C150_albedo_fails, C150_albedo_full_fails (correct_albedo is never read). Proved instead: C150_effect_partial says exactly at which cells of one step the number matters; C150_uniform_partial: it does not matter to a run in which it snows everywhere or nowhere at every step; C150_albedo_partial: with the item on the net radiation is the described one (no limits, no other corrections).",
 "C151": "C151_outside, C151_cell (against the model without rounding of C25), C151_total, C151_double (rounding to nearest with 53 digits, exponent without limits). The stations that lose all precipitation are those of C25_total_iff; they lose it here too (C151_outside). Overflow and underflow are not modelled.",
 "C152": "C152_backward_partial, C152_residual_partial and C152_forward_partial need right-hand sides without negative numbers (the case of kriging); C152_fails is the witness that without it the claim is false (see C57). C152_none, C152_exact (no error without rounding), C152_double. The factor 2^n in gamma is the a priori growth bound of partial pivoting. Fused multiply-add, overflow, underflow, infinities and NaN are not modelled.",
 "C153": "C153_nonneg_partial: missing are stations at or below sea level, where a negative weight stays; C153_negative_fails shows this in double precision. C153_terminates, C153_equations, C153_sum, C153_range, C153_exit, C153_double. Distances are inputs (their rounding only changes which numbers they are). Overflow, underflow, fused multiply-add not modelled.",
 "C154": "C154_double_partial: exact in double precision; missing: single precision, for which C154_fails and C154_drift_fails show the drift with rounding to 24 digits computed exactly. C154_drift_bound and C154_year bound it; C154_forgets: a storm makes the value read irrelevant but not the precision (C154_after_storm_fails). That numpy converts the number added to the type of the array is taken from its documentation. Which record is read is C109.",
 "C155": "C155_exact_partial: multiples of 0.5 m; missing: other coordinates, for which C155_fails and C155_collapse_fails show that the double precision setting does not keep them. C155_near and C155_order bound the change and keep the order for cells of at least 1.2 m. Rounding to 24 digits to nearest; no overflow.",
 "C156": "C156_limits_partial: limits with at most 24 binary digits (C156_default: all default limits but that of the wind); missing: other limits in single precision, refuted by C156_fails and, for every calm cell, C156_calm_fails. C156_files: rounding commutes with the whole run; C156_monotone, C156_dew: order kept; C156_near: a limit is passed by at most 2^-24 of the value; C156_double: nothing changes in double precision. Images themselves exact; no overflow or underflow.",
 "C157": "C157_split_partial: station data with marks2017, same images or same error (simulation over the steps). C157_over_partial: gridded data, if the last storm is over in every cell at the restart. C157_storms_partial, C157_clip_partial, C157_table_partial: the storms and rows of the second part, if the first part ends dry and (table) there is no drizzle. Missing cases refuted by C157_fails (susong1999: the storm mass is not restored), C157_cut_fails (restart in a storm) and C157_drizzle_fails. C157_total: the storm total of the first part is lost. The clock is handed on exactly; its rounding in the file is C154.",
 "C158": "C158_clock and C158_lost: the clock read in every case but a start at the first step (index -1). C158_restart_partial: composition with C157 for output of every step. Missing cases refuted by C158_fails (steps of 20 minutes) and C158_mask_fails. num2date rounds to the nearest microsecond (assumption as in C126); dates as minutes since the start of the first run.",
 "C159": "C159_error, C159_monotone, C159_below, C159_file, C159_share hold as stated; C159_table_partial excludes dew points near an edge of the table, where C159_fails gives a cell that changes from a quarter snow to rain. C159_solved_partial inherits the range of C43_range_partial. Rounding inside the solver and the float's exponent limits are not modelled.",
 "C160": "C160_lines is the exact characterisation for every history; C160_first_partial the claim for modules that have not logged before; C160_fails and C160_silent refute it for a second run. The behaviour of logging.config.dictConfig (disable_existing_loggers defaults to True) and of coloredlogs.install is taken from their documentation.",
 "C161": "C161_cell, C161_linear and C161_order hold for any weights; C161_range_partial and C161_double_partial need stations above sea level, C161_fails shows a negative estimate from non-negative data otherwise (negative weights stay at stations at or below sea level, as in C56 and C153). The trend of np.polyfit is any pair of numbers.",
 "C162": "C162_fails: a cosine of 4e-7 is cut to 0 and the step is a night; C162_day gives the exact threshold, C162_day_partial the part of the claim that holds. The double arithmetic before the digits are cut is not rounded in the model.",
 "C163": "C163_fails: cosz 0.75, omega 1, g 2^-17 in double precision raises the ValueError (the loop of beta_0 is followed in the model, two turns). C163_exact: without rounding the model is that of C49. C163_order_partial, C163_value_partial and C163_double_partial need the albedo below one. The exponentials and fluxes are not rounded.",
 "C164": "C164_fails: six cells of a row in double precision for which the third cell is chosen though the last is higher, and the slope reported is larger than any of the true ones. C164_bound_partial: the bound for every rounding and every straight profile; the errors grow with N and not with its square because every turn of the inner loop but two takes a point out of the chain of horizons. C164_double_partial: the numbers for doubles. C164_exact: without rounding the model is that of C64. Lines that are not straight are the subject of C64; the arc tangent is exact.",
 "C165": "Complements C64, which shows that on a line of cells that is not straight the highest point can be missed. C165_profile: any line of points whose length between two points is at most kappa times their distance. C165_line, C165_square: the lines that find_line makes, from the cell to the value after the correction of model.py. C165_sharp: three cells for which the loss is 7.9 percent. Exact arithmetic; C164 has the rounding on straight lines.",
 "C166": "C166_fails: on the line from (0,0) to (2,1), raising the middle cell from 0.5 to 1 stops the search there and lowers the reported slope from 1.079 to 1. C166_straight_partial: true on straight lines seen from the ground. C166_line_partial: on square cells and in any direction the loss is at most 8.3 percent plus the share of the instrument height. C166_datum and C166_scale hold without condition. Exact arithmetic.",
 "C167": "C167_marks and C167_albedo: true for the clock of marks2017, for every number of steps, given the precipitation after the clipping to storms. C167_susong_partial: true for susong1999 if no dry step becomes wet and no dry cell gets less snow than the mass threshold. C167_fails by C167_trace_fails: half a millimetre of snow in an otherwise dry hour makes the snow a day old instead of an hour, because wet steps count a day and dry steps count the time step. C167_overwrite_fails: light snow after a storm replaces the mass of the storm (assignment where a sum is meant). C167_clip_fails: more precipitation outside a storm lowers the corrected precipitation of another step. Exact arithmetic, no missing cells.",
 "C168": "C168_marks (clock of marks2017, any number of steps), C168_share (share of snow in each step, both snow models), C168_dew and C168_image (precipitation temperature) hold. C168_susong_partial: the clock of susong1999, if snow that turns to rain was enough for a storm. C168_fails by C168_rain_fails: after ten millimetres of snow a tenth of a millimetre leaves the snow a day old if it falls as snow and new if it falls as rain with some snow, because only snow replaces the mass of the storm. The wet-bulb method is not part of C168_image.",
 "C169": "C169_station and C169_basin: the closed forms, from the invariants of C23, C24 and C26. C169_grows, C169_basin_grows and C169_causal follow. C169_grows discharges the hypothesis on storms in C167.",
 "C170": "C170_surface: the part on albedo and canopy, proved for all limits. C170_full is the part on cloud; C170_fails and C170_cloudy_fails refute it: as the net counts the diffuse part twice, an open cell gets more net radiation under a cloud factor of 0.75 than under a clear sky when at most a tenth of the clear light is diffuse. C170_cloud_partial: it holds for cloud factors up to 0.79 where the canopy passes the beam at least as well as the diffuse light. Missing: other canopies below 0.79. C170_excess bounds the excess for cloud factors up to 0.99: 13.4 percent. The effect of the albedo on the clear-sky images (terrain reflection) is not included.",
 "C171": "C171_moist_partial: moister air, all clear-sky methods, all cloud methods but Kimball. C171_hot_partial: hotter air, all clear-sky methods but Marks, all cloud methods but Kimball, where no terrain is seen or the air is above zero; Dilley from -63 degrees and up to 5 kPa. C171_cloud_partial: cloudier sky, all cloud methods, all clear-sky methods but Dilley, from -136 degrees. Refuted elsewhere: C171_kimball_fails (moister air, 27 degrees, below saturation), C171_terrain_fails (hotter air below zero in a cell without sky), C171_dilley_fails (cloudier sky at -100 degrees); C171_fails is the negation of C171_full. Missing: the method of Marks in hotter air, Kimball in hotter air.",
 "C172": "C172_plain_partial: without trend, at cells without a station. With trend C172_influence gives the exact effect of every reading: its weight plus its pull on the slope times the height of the cell above the weighted mean elevation of the stations (kriging; C172_idw shows that inverse distance weighting is of the same form). C172_trend_partial: no cell falls where all influences are at least zero, as at the weighted mean elevation. C172_extrapolated_fails: above the higher of two stations every cell falls when the lower one rises. C172_fails: negation of C172_full. Missing: readings that change whether the trend is dropped.",
 "C173": "C173_cell and C173_image_partial: for limits with max_scour at most min_drift, as in the defaults. C173_limits_fails: with overlapping limits a cell that becomes sheltered can lose snow. C173_floor: with the defaults every exposed cell with an upwind slope up to 15 degrees gets exactly 55 percent. C173_fails: negation of C173_full.",
 "C174": "C174_windier and C174_shield hold for all winds and phases. C174_colder_partial: gauges without shield, and shielded gauges from 1.6 m/s on. C174_light_fails: a shielded gauge between 0.4 and 1.25 m/s is corrected more for rain than for snow. C174_unknown_temp: a station without temperature counts as rain. C174_fails: negation of C174_full. Not decided: the narrow ranges around the two crossings of the shielded curves.",
 "C175": "C175_dew_partial: cells whose dew point stays below the air temperature. C175_drop: in general the dew point falls by less than 0.2 degrees or the error of the solver. C175_clip_fails: when a cell just below saturation is moistened to saturation its dew point is set to 0.2 degrees below the air temperature and falls. C175_snow_fails: rain then becomes a quarter snow. C175_fails: negation of C175_full. Not covered: the wet-bulb method.",
 "C176": "C176_response: the returned values, all three inputs at once. C176_solution: the solutions of the psychrometric equation. C176_elevation: the pressures that iwbt uses at two elevations. Outside the stated range C44 does not show that the iteration ends.",
 "C177": "C177_bounces: the series, with the fraction sent back from the differential equations (FromBelow). C177_ground_partial, C177_image: strong scattering, omega (4 - 3 g) > 1, which the defaults meet. C177_weak_fails: without scattering white ground gets less light than black, every depth up to 1.",
 "C178": "C178_amount: more precipitation, all models, strict for marks2017. C178_warmer_partial: warmer air, all models, for marks2017 up to 50 mm in a step (C81_density gives the density, then monotone in the temperature by bounds on the exponentials). C178_heavy_fails: from 1200 mm in a step on, snow at 0 degrees is lighter than at -10.",
 "C179": "C179_hot_partial: the published image, cells whose two temperatures are on one side of the freezing point or half a degree apart. Saturation grows no faster than the 27th power of the temperature (sat_power). C179_jump_fails: in every cell between sea level and 4000 m that sees some sky there is a temperature above the freezing point with less radiation than at the freezing point.",
 "C180": "C180_plain_partial: without trend, cells without a station. C180_trend, C180_idw_partial: with trend, also where the trend is dropped in one of the runs; C180_sharp: the bound is reached. C180_amplified_fails: with trend, for every factor K and any two stations, every cell from some elevation on changes by more than K times the error.",
 "C181": "C181_share_partial, C181_range_partial: without trend, cells without a station. C181_trend_fails: with trend, readings between -3 and 1, and a missing reading changes a cell by more than any given amount (the falling trend of three stations is dropped, the rising one of the two left is kept).",
 "C182": "C182_cloud_partial: for cloud factors on the same side of 0.99. C182_albedo: in full. C182_step: at 0.99 the diffuse light jumps from 2.6 percent of the whole light to the diffuse light of the clear sky. C182_jump_fails: in an ordinary open cell no factor holds for cloud factors within any distance of each other.",
 "C183": "C183_piecewise: the full claim for the piecewise model (0.75 per degree, 122 kg/m3 per degree: C183_fraction_partial, C183_density_partial). The fraction and the mass also for Marks 2017. C183_table_fails: the Susong 1999 table jumps at 0 degrees from 75 to 25 percent. C183_marks_fails: the Marks 2017 density jumps at 1 degree from at least 50 kg/m3 to zero.",
 "C184": "Two runs of Thermal.distribute that differ in the cloud factor (C184_cloud, C184_black, C184_sharp) or in the transmissivity (C184_canopy).",
 "C185": "The bound in wind is proved within one phase with the rates 0.27, 0.34 (snow) and 0.084, 0.165 (rain) per m/s (C185_wind_partial); the factor five for the reading (C185_reading). Refuted in the temperature (C185_phase_fails, C185_fails).",
 "C186": "Age: C186_age, C186_published, C186_litter (litter rate below 1). Angle: C186_sun_partial on one side of the horizon; refuted across it (C186_horizon_fails, C186_fails).",
 "C187": "Readings and flat wind: C187_station, C187_flat, C187_reading. Slope: C187_slope_partial within a class; refuted at the class boundaries and at level ground (C187_gap_fails, C187_level_fails, C187_fails).",
 "C188": "Precipitation: C188_precip. Wind: C188_wind_partial. Slope: C188_slope. Refuted for temperature and shelter (C188_temperature_fails, C188_shelter_fails, C188_fails).",
 "C189": "Two runs of the dew-point solver of C43; C189_dew_point for the whole range, C189_cold below freezing, C189_limited for the limit by the air temperature.",
 "C190": "Composition of C180 (distribution), the limits, C189 (root finder) and the limit by the air temperature in the model of vapor_pressure.distribute; the solver is any that returns what the search of dewpt.c ends with.",
 "C191": "Two runs of the thermal step; C191_exact and C191_view for the three Python methods, C191_marks for the C routine, C191_unused without terrain correction.",
 "C192": "Two runs of the thermal step for vapor pressures from the default minimum of 20 Pa. Missing: the clouds of Kimball, which read the vapor pressure too; fails with the method of Dilley near 0 Pa (C192_dry_fails).",
 "C193": "Two runs of the thermal step; C193_one_side without, C193_dew with the freezing point in between, C193_unused for the other methods.",
 "C194": "Two runs of the thermal step with the same vapor pressure. The method of Marks jumps at freezing (C179) and is not part of the claim, nor are the clouds of Kimball.",
 "C195": "C184, C192, C193 and C194 along a path of runs in which one input changes at a time."
}