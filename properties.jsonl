{"id": "C01", "title": "Date queue behaves like a map from date to last value", "statement": "After any sequence of puts and cleans on one date queue, a get for a date returns exactly the value of the most recent put for that date that was not followed by a clean of that date, and waits if and only if there is no such put.", "quantifier": "every finite history of put/get/clean operations, every key, value and capacity", "why_tests_cant": "a test fixes one history; the claim is about every interleaved history of arbitrary length", "anchors": ["smrf/utils/queue.py::DateQueueThreading._put", "smrf/utils/queue.py::DateQueueThreading.get", "smrf/utils/queue.py::DateQueueThreading.put", "smrf/utils/queue.py::DateQueueThreading.clean"]}
{"id": "C02", "title": "A bounded date queue never holds more than its capacity", "statement": "If a date queue is created with capacity n > 0 then after any history of operations it holds at most n dates; with capacity 0 a put never waits.", "quantifier": "every history, every capacity", "why_tests_cant": "an invariant over unbounded histories, including puts that overwrite an existing date while the queue is full", "anchors": ["smrf/utils/queue.py::DateQueueThreading.put", "smrf/utils/queue.py::DateQueueThreading._qsize"]}
{"id": "C03", "title": "Reading does not consume, cleaning removes only its own date", "statement": "A get never changes what any later get returns; clean(t) makes exactly the value at t disappear and leaves every other date as it was; cleaning an absent date is a no-op; put(t, v) leaves every date other than t as it was.", "quantifier": "every queue state, every pair of dates", "why_tests_cant": "frame conditions quantify over all other dates and all states", "anchors": ["smrf/utils/queue.py::DateQueueThreading.get", "smrf/utils/queue.py::DateQueueThreading.clean", "smrf/utils/queue.py::DateQueueThreading._put"]}
{"id": "C04", "title": "A get or put that cannot be served is signalled, never silent", "statement": "A get that returns normally returns a value that was put for the requested date, and a put that returns normally has stored its value; otherwise the caller is told (exception, exit) - for blocking and non-blocking calls.", "quantifier": "every queue state, date, and combination of the block and timeout arguments", "why_tests_cant": "the silent branches need the queue to be non-empty with the requested date missing, or full at the moment of a non-blocking put", "anchors": ["smrf/utils/queue.py::DateQueueThreading.get", "smrf/utils/queue.py::DateQueueThreading.put"]}
{"id": "C05", "title": "A timeout given to one call bounds that call and no other", "statement": "A timeout passed to get or put bounds the waiting time of that call, and leaves the timeout used by every later call on the queue unchanged.", "quantifier": "every sequence of calls with and without timeout arguments", "why_tests_cant": "the effect shows only on later calls, in unbounded histories", "anchors": ["smrf/utils/queue.py::DateQueueThreading.get", "smrf/utils/queue.py::DateQueueThreading.put"]}
{"id": "C06", "title": "Threaded run is deterministic", "statement": "In a threaded run the value published for each variable at each date does not depend on how the operating system schedules the threads nor on the queue capacity: any two executions agree on every (variable, date) that both have published, and agree with the values obtained by running the modules one after the other in date order.", "quantifier": "every schedule, every queue capacity, every number of time steps, every family of deterministic module bodies", "why_tests_cant": "the number of schedules is unbounded; a test sees a handful", "anchors": ["smrf/framework/model_framework.py::SMRF.create_distributed_threads", "smrf/framework/model_framework.py::SMRF.disttribute_data_threaded", "smrf/envphys/sunang.py::sunang_thread", "smrf/envphys/solar/model.py::shade_thread", "smrf/distribute/*.py::distribute_thread", "smrf/utils/queue.py::QueueCleaner.run", "smrf/utils/queue.py::QueueOutput.run"]}
{"id": "C07", "title": "The cleaner never removes a value somebody still needs", "statement": "In a threaded run, when the cleaner removes date t from a queue every module and the output thread have already performed all of their reads at date t, so no reader ever waits for a value that has been removed.", "quantifier": "every schedule, capacity and number of time steps", "why_tests_cant": "depends on all interleavings of cleaner and readers", "anchors": ["smrf/utils/queue.py::QueueCleaner.run", "smrf/framework/model_framework.py::SMRF.set_queue_variables", "smrf/envphys/sunang.py::sunang_thread", "smrf/envphys/solar/model.py::shade_thread", "smrf/distribute/*.py::distribute_thread", "smrf/utils/queue.py::QueueCleaner.run", "smrf/utils/queue.py::QueueOutput.run"]}
{"id": "C08", "title": "A well-formed threaded run cannot deadlock and always finishes", "statement": "If every queue watched by the cleaner is written once per date by exactly one thread and reads are ordered consistently (no module reads, before writing a variable, something computed from that variable at the same date), then from every reachable state some thread can move until all threads have finished, for every capacity including 1, and every execution is finite.", "quantifier": "every schedule, every reachable state, every capacity, every number of time steps", "why_tests_cant": "deadlock freedom is a statement about all reachable states of all schedules", "anchors": ["smrf/utils/queue.py::QueueCleaner.run", "smrf/framework/model_framework.py::SMRF.create_distributed_threads", "smrf/envphys/sunang.py::sunang_thread", "smrf/envphys/solar/model.py::shade_thread", "smrf/distribute/*.py::distribute_thread", "smrf/utils/queue.py::QueueCleaner.run", "smrf/utils/queue.py::QueueOutput.run"]}
{"id": "C09", "title": "Every accepted configuration runs to completion when threaded", "statement": "For every configuration the framework accepts (output frequency, solar cloud/vegetation correction flags, thermal correction flags, wind model, precipitation rescaling model, density model, output variable selection) the threaded run completes for every schedule.", "quantifier": "every combination of configuration options, every schedule, every number of steps", "why_tests_cant": "the interaction of flags with the set of queues the cleaner waits on is combinatorial, and the failure is a hang", "anchors": ["smrf/framework/model_framework.py::SMRF.set_queue_variables", "smrf/distribute/solar.py::Solar.distribute_thread", "smrf/distribute/wind/wind.py::Wind.distribute_thread", "smrf/utils/queue.py::QueueOutput.run", "smrf/distribute/precipitation.py::ppt.distribute_thread"]}
{"id": "C10", "title": "Threaded and serial runs hand the same inputs to every module", "statement": "For a given configuration the threaded driver and the serial driver give each module's distribute the same arguments at each date, and write the same set of output variables, so their outputs agree.", "quantifier": "every configuration and date", "why_tests_cant": "the two drivers are separate code paths; agreement must hold for every configuration and step", "anchors": ["smrf/framework/model_framework.py::SMRF.distribute_single_timestep", "smrf/distribute/precipitation.py::ppt.distribute_thread", "smrf/framework/model_framework.py::SMRF.output", "smrf/utils/queue.py::QueueOutput.run"]}
{"id": "C11", "title": "A published value does not change after publication", "statement": "A reader of a variable at date t sees the value as it was when it was put, even if the producer has already moved on to later dates.", "quantifier": "every schedule, every capacity, every history of storm / no storm steps", "why_tests_cant": "the corruption needs the producer to overtake a reader while mutating the same array in place", "anchors": ["smrf/distribute/precipitation.py::ppt.distribute_for_susong1999", "smrf/distribute/precipitation.py::ppt.distribute_for_marks2017", "smrf/envphys/storms.py::time_since_storm", "smrf/distribute/albedo.py::Albedo.distribute_thread"]}
{"id": "C12", "title": "Outputs are written at every frequency-th step and at the last step", "statement": "With output frequency f, a run over n steps writes exactly the steps whose index is a multiple of f plus the last step; threaded and serial drivers write the same steps.", "quantifier": "every f >= 1 and every n", "why_tests_cant": "ranges over every run length and frequency", "anchors": ["smrf/framework/model_framework.py::SMRF.output", "smrf/utils/queue.py::QueueOutput.run"]}
{"id": "C13", "title": "NetCDF output keeps one record per time, the latest", "statement": "After any sequence of writes to an output file - including re-running or resuming after a crash at any point - each time appears at most once in the time axis, a record holds the last value written for its time, and other records are untouched; running the same writes again changes nothing.", "quantifier": "every sequence of writes, every crash point followed by any re-run", "why_tests_cant": "crash points and histories are unbounded", "anchors": ["smrf/output/output_netcdf.py::OutputNetcdf.output"]}
{"id": "C14", "title": "Missing data becomes zeros, masked-out cells never leak", "statement": "When a variable is None at an output step (sun below the horizon) the record written is all zeros of grid shape; when masking is on every cell outside the mask is written as zero and every cell inside as its value; when the module has a value it is written unchanged.", "quantifier": "every grid and mask, every value", "why_tests_cant": "shape and mask quantify over all grids", "anchors": ["smrf/framework/model_framework.py::SMRF.output", "smrf/utils/queue.py::QueueOutput.run", "smrf/output/output_netcdf.py::OutputNetcdf.output"]}
{"id": "C15", "title": "The files created are exactly the requested known variables", "statement": "The set of output variables is exactly the requested variables that some module can produce, each once, each mapped to its own module and file; requested unknown variables add nothing and affect no other variable.", "quantifier": "every requested list (with repetitions and unknown names) and every catalogue", "why_tests_cant": "lists of arbitrary length with duplicates", "anchors": ["smrf/framework/model_framework.py::SMRF.create_output_variable_dict", "smrf/framework/model_framework.py::SMRF.possible_output_variables"]}
{"id": "C16", "title": "Clamping is a projection that only touches out-of-range cells", "statement": "set_min_max returns an array of the same shape in which every defined cell lies between the limits, cells already in range and undefined (NaN) cells are unchanged, applying it twice equals applying it once, and order between cells is preserved.", "quantifier": "every array, every pair of limits min <= max", "why_tests_cant": "all arrays and limits, including NaN cells", "anchors": ["smrf/utils/utils.py::set_min_max"]}
{"id": "C17", "title": "Water day and water year are consistent with the calendar", "statement": "water_day maps 1 October 00:00 to day 0 of the next calendar year's water year, is non-decreasing within a water year, increases by exactly the elapsed days, stays within [0, 366), and the water year changes exactly at 1 October.", "quantifier": "every date and time of day", "why_tests_cant": "all dates of all years including leap years", "anchors": ["smrf/utils/utils.py::water_day"]}
{"id": "C18", "title": "Day-of-year arithmetic is exact", "statement": "yearday is the number of days since 1 January of that year plus one, strictly increasing within a year, ranges over 1..365/366, and every day number of the year is hit exactly once; numdays gives the Gregorian month lengths.", "quantifier": "every year (leap and not), every month and day", "why_tests_cant": "all calendar dates; the leap rule has three nested exceptions", "anchors": ["smrf/envphys/sunang.py::yearday", "smrf/envphys/sunang.py::numdays", "smrf/envphys/sunang.py::leapyear", "smrf/utils/utils.py::is_leap_year"]}
{"id": "C19", "title": "The list of simulation dates is complete, ordered and regular", "statement": "date_range(start, end, step) is strictly increasing with constant step, begins with start, contains no date after end, and omits no multiple of the step up to and including end.", "quantifier": "every start, end and positive step", "why_tests_cant": "all ranges, inclusive end boundary", "anchors": ["smrf/utils/utils.py::date_range", "smrf/framework/model_framework.py::SMRF._setup_date_and_time"]}
{"id": "C20", "title": "Colocated stations are found exactly", "statement": "check_station_colocation reports a group of stations exactly when two or more stations share the same position, each reported group has one position, and no station that shares its position with another is left out.", "quantifier": "every list of stations", "why_tests_cant": "all station lists and coincidence patterns", "anchors": ["smrf/utils/utils.py::check_station_colocation"]}
{"id": "C21", "title": "Linear grid interpolation is exact and bounded", "statement": "With the weights of interp_weights a target's interpolated value reproduces affine fields exactly and, for a target inside its simplex, lies between the smallest and largest vertex values; targets outside every simplex get the fill value.", "quantifier": "every simplex, target and field", "why_tests_cant": "real-valued geometry, unbounded inputs", "anchors": ["smrf/utils/utils.py::interp_weights", "smrf/utils/utils.py::grid_interpolate"]}
{"id": "C22", "title": "A station list in the configuration restricts the stations used", "statement": "If a [variable] section lists stations, that variable is distributed from exactly those stations; if not, from all of them.", "quantifier": "every station list and metadata table", "why_tests_cant": "the result of configuration handling for every list", "anchors": ["smrf/distribute/image_data.py::image_data.getStations", "smrf/distribute/image_data.py::image_data._initialize"]}
{"id": "C23", "title": "Station-based storm segmentation is sound and complete", "statement": "tracking_by_station returns storms in time order that do not overlap, each starting at a step above the threshold; every step above the threshold lies in exactly one storm, and a storm's recorded mass for each station is the precipitation of its above-threshold steps; the storm count equals the number of storms.", "quantifier": "every precipitation record (any length, any number of stations), every threshold, every step limit", "why_tests_cant": "state machine over arbitrary histories, including storms open at the end of the record", "anchors": ["smrf/envphys/storms.py::tracking_by_station"]}
{"id": "C24", "title": "Separate storms are separated by the configured dry spell", "statement": "Between two consecutive storms there are at least steps_thresh consecutive steps at or below the mass threshold, and within a storm there is never such a dry spell between two wet steps.", "quantifier": "every record and step limit", "why_tests_cant": "all histories of wet and dry steps", "anchors": ["smrf/envphys/storms.py::tracking_by_station"]}
{"id": "C25", "title": "Clipping to storms conserves each station's total", "statement": "clip_and_correct removes all precipitation outside storms and rescales what remains so that each station's total over the record equals its original total.", "quantifier": "every record, storm list and station", "why_tests_cant": "all records; division by the clipped total must be safe", "anchors": ["smrf/envphys/storms.py::clip_and_correct"]}
{"id": "C26", "title": "Basin-based storm segmentation is sound", "statement": "tracking_by_basin, called once per step: the recorded storms are in time order and disjoint, each starts and ends at a step whose basin maximum exceeds the threshold, every such step lies in a storm, and two such steps lie in the same storm exactly when no dry spell of the configured number of steps separates them.", "quantifier": "every sequence of precipitation images", "why_tests_cant": "arbitrary histories", "anchors": ["smrf/envphys/storms.py::tracking_by_basin"]}
{"id": "C27", "title": "Days since last storm follow the clock", "statement": "time_since_storm: at every cell the day counter either increases by the length of the time step or is reset to 0, and it is reset exactly when the precipitation accumulated during the current storm reaches the mass threshold while snowing.", "quantifier": "every history of precipitation images and every time-step length", "why_tests_cant": "histories of arbitrary length and non-daily steps", "anchors": ["smrf/envphys/storms.py::time_since_storm", "smrf/distribute/precipitation.py::ppt.distribute_for_susong1999"]}
{"id": "C28", "title": "Pixel storm clock equals time since the last storm at that pixel", "statement": "After any run of time_since_storm_pixel steps the counter at each pixel equals the time elapsed since the last step that met the storm, temperature, mass and snow-fraction criteria there (plus the initial value if none), is never negative, and pixels are independent apart from the domain-wide temperature test.", "quantifier": "every sequence of steps", "why_tests_cant": "induction over arbitrary histories", "anchors": ["smrf/envphys/storms.py::time_since_storm_pixel", "smrf/distribute/precipitation.py::ppt.distribute_for_marks2017"]}
{"id": "C29", "title": "Susong 1999 phase/density classification is total and monotone", "statement": "Every precipitation temperature falls into exactly one class; percent snow lies in [0,1] and never increases with temperature; density is 0 exactly when percent snow is 0 for wet cells and otherwise in [75,250]; cells without precipitation get 0 for both.", "quantifier": "every temperature and precipitation image", "why_tests_cant": "all real temperatures including class boundaries", "anchors": ["smrf/envphys/nasde_model/susong_1999.py::run", "smrf/envphys/nasde_model/susong_1999.py::TABLE"]}
{"id": "C30", "title": "Percent snow is a continuous non-increasing fraction of temperature", "statement": "calc_percent_snow lies in [0,1], is 1 at or below -0.5 C, 0 above tmax+1, is non-increasing in temperature and has no jumps at the class boundaries.", "quantifier": "every temperature and every tmax > -1", "why_tests_cant": "all reals; monotonicity relates all pairs", "anchors": ["smrf/envphys/nasde_model/utils.py::calc_percent_snow"]}
{"id": "C31", "title": "Piecewise density is bounded and well defined", "statement": "For every precipitation temperature the piecewise Susong density model returns a percent snow in [0,1] and, for snow, a density between 50 and the value at the warmest allowed temperature; temperatures outside the allowed range are first brought into it; cells without precipitation are zero.", "quantifier": "every temperature image, tmin < tmax, with and without the temperature check", "why_tests_cant": "all reals and option combinations", "anchors": ["smrf/envphys/nasde_model/piecewise_suosong_1999.py::run", "smrf/envphys/nasde_model/utils.py::check_temperature"]}
{"id": "C32", "title": "Marks 2017 density: compaction only densifies, quantities are distinct", "statement": "The Marks 2017 model returns a new snow density at least the uncompacted density, with the reported compaction terms, uncompacted density and snow depth being the quantities they are named after, and SWE equal to percent snow times precipitation.", "quantifier": "every temperature and precipitation image", "why_tests_cant": "aliasing between output arrays shows only for specific data", "anchors": ["smrf/envphys/nasde_model/marks_2017.py::run"]}
{"id": "C33", "title": "Undercatch correction never reduces a gauge reading", "statement": "For every gauge type, wind speed and temperature the catch ratio is positive, does not increase with wind speed, and the corrected precipitation is at least the measured one; stations without wind or temperature data are unchanged; unknown gauge types are rejected.", "quantifier": "every wind speed >= 0, temperature, gauge type, station set", "why_tests_cant": "real-valued inputs over unbounded ranges", "anchors": ["smrf/envphys/precip.py::catchment_ratios", "smrf/envphys/precip.py::adjust_for_undercatch"]}
{"id": "C34", "title": "Wind redistribution of snow is bounded and local", "statement": "dist_precip_wind leaves warm cells unchanged, scales each cold cell by a factor inside the configured drift or scour bounds (1 in sheltering vegetation), never produces negative precipitation, and assigns every cell; the exposed-cell factor follows the published cubic.", "quantifier": "every grid, wind field and set of bounds", "why_tests_cant": "all grids and cell states", "anchors": ["smrf/envphys/precip.py::dist_precip_wind"]}
{"id": "C35", "title": "Precipitation state is refreshed at every step", "statement": "At every step, whatever the configuration, the published precipitation, percent snow, density and storm clock are those computed from that step's data.", "quantifier": "every configuration and step", "why_tests_cant": "stale state is visible only in some configurations and over several steps", "anchors": ["smrf/distribute/precipitation.py::ppt.distribute"]}
{"id": "C36", "title": "Snow albedo stays physical and declines with age", "statement": "For every accepted grain-size configuration, storm age >= 0 and illumination angle in [-1,1], visible and infrared albedo are well defined, non-increasing in storm age, and after the configured clamping lie within the configured limits; with the sun on the terrain they are at least the base value.", "quantifier": "every parameter set accepted by validation, every age, every angle", "why_tests_cant": "real-valued ranges, monotonicity over all pairs", "anchors": ["smrf/envphys/albedo.py::albedo", "smrf/envphys/albedo.py::growth", "smrf/distribute/albedo.py::Albedo.distribute"]}
{"id": "C37", "title": "Out-of-range albedo parameters are rejected", "statement": "albedo raises an error exactly when the grain size is not in (0,500], the maximum grain size is not in (gsize,2000], or the dirt factor is outside [1,10].", "quantifier": "every parameter triple", "why_tests_cant": "validation must be right for all values; one of the tests is vacuous", "anchors": ["smrf/envphys/albedo.py::albedo"]}
{"id": "C38", "title": "Date-method albedo decay is monotone and bounded", "statement": "decay_alb_power: before the decay window the albedo is unchanged, inside it the reduction grows with time from 0 to the vegetation-class maximum and stays there afterwards; it is continuous at the window boundaries.", "quantifier": "every window, power, decay and time", "why_tests_cant": "real-valued time, all windows", "anchors": ["smrf/envphys/albedo.py::decay_alb_power"]}
{"id": "C39", "title": "Litter albedo is between snow and litter albedo", "statement": "decay_alb_hardy returns a weighted mean of snow albedo and litter albedo, equal to snow albedo on the storm day and moving monotonically toward litter albedo with age.", "quantifier": "every rate in [0,1], albedo and age", "why_tests_cant": "all real ages and rates", "anchors": ["smrf/envphys/albedo.py::decay_alb_hardy"]}
{"id": "C40", "title": "Dew point is strictly below air temperature", "statement": "After distributing vapor pressure every cell's dew point is strictly below the air temperature of that cell, and other cells keep the dew point computed from vapor pressure.", "quantifier": "every grid of vapor pressure and temperature", "why_tests_cant": "all grids", "anchors": ["smrf/distribute/vapor_pressure.py::vp.distribute"]}
{"id": "C41", "title": "Saturation vapor pressure over ice is positive and strictly increasing", "statement": "sati is positive and strictly increasing in temperature over the range where the code uses the ice formula, and non-positive Kelvin temperatures are rejected.", "quantifier": "every temperature", "why_tests_cant": "monotonicity over a continuum; needed by the dew-point root finder", "anchors": ["smrf/envphys/vapor_pressure.py::sati", "smrf/envphys/vapor_pressure.py::satw", "smrf/envphys/core/topotherm.c::sati"]}
{"id": "C42", "title": "Relative humidity conversion treats every station alike", "statement": "rh2vp returns rh times saturation vapor pressure for each station, whether humidity is given as percent or fraction, independent of the order of the stations.", "quantifier": "every list of temperatures and humidities", "why_tests_cant": "order dependence shows only for mixed lists", "anchors": ["smrf/envphys/vapor_pressure.py::rh2vp"]}
{"id": "C43", "title": "Dew-point solver brackets and preserves the root", "statement": "For every positive vapor pressure the dew-point search first finds an interval whose ends bracket the solution, and every iteration of the root finder keeps a bracketing interval no wider than the previous one, so a returned value is within tolerance of a temperature whose saturation pressure equals the vapor pressure.", "quantifier": "every positive vapor pressure, every iteration count", "why_tests_cant": "loop invariants over unbounded iterations", "anchors": ["smrf/envphys/core/dewpt.c::dew_pointp", "smrf/envphys/core/dewpt.c::zerobr", "smrf/envphys/vapor_pressure.py::idewpt"]}
{"id": "C44", "title": "Wet-bulb iteration returns only converged values", "statement": "The wet-bulb routine either returns a value whose last correction was below tolerance, or reports failure; it never returns an unconverged iterate and uses at most ten iterations. For air as it occurs it does not fail, and what it returns solves the psychrometric equation to within the tolerance or the last correction.", "quantifier": "every input", "why_tests_cant": "loop exit conditions over all inputs", "anchors": ["smrf/envphys/core/iwbt.c::wetbulb"]}
{"id": "C45", "title": "Net solar radiation counts each component once", "statement": "Net solar equals absorbed direct beam plus absorbed diffuse radiation, each counted once; topographically corrected beam and diffuse are non-negative.", "quantifier": "every radiation field, albedo and sky view factor", "why_tests_cant": "energy balance for all inputs across two modules", "anchors": ["smrf/envphys/solar/toporad.py::toporad", "smrf/distribute/solar.py::Solar.calc_net", "smrf/distribute/solar.py::Solar.distribute"]}
{"id": "C46", "title": "No sun, no solar radiation", "statement": "At every step with the sun at or below the horizon no shading, albedo, or solar radiation is computed and every solar output is reported as zero; with the sun up every solar output is computed.", "quantifier": "every sequence of steps and sun positions", "why_tests_cant": "stale daytime values could leak into night steps", "anchors": ["smrf/distribute/solar.py::Solar.distribute", "smrf/envphys/solar/model.py::shade_thread", "smrf/envphys/solar/toporad.py::stoporad", "smrf/envphys/solar/twostream.py::twostream", "smrf/framework/model_framework.py::SMRF.distribute_single_timestep"]}
{"id": "C47", "title": "Cloud correction only redistributes and reduces radiation", "statement": "For cloud factors in [0,1] the cloud-corrected total radiation is at most the clear-sky total, corrected diffuse is non-negative and, below the clear-sky cutoff, never exceeds the corrected total; heavier cloud (smaller factor) never increases the corrected total.", "quantifier": "every cloud factor and clear-sky radiation", "why_tests_cant": "all reals, both cutoffs", "anchors": ["smrf/envphys/solar/cloud.py::cf_cloud", "smrf/distribute/solar.py::Solar.cloud_correct"]}
{"id": "C48", "title": "Canopy attenuation is a contraction", "statement": "Vegetation-corrected beam and diffuse radiation are non-negative, never exceed the input, decrease with canopy height and extinction and equal the input for zero height / unit transmissivity, whatever the sun angle.", "quantifier": "every radiation, height, extinction, transmissivity and angle", "why_tests_cant": "all reals including grazing and negative angles", "anchors": ["smrf/envphys/solar/vegetation.py::solar_veg_beam", "smrf/envphys/solar/vegetation.py::solar_veg_diffuse", "smrf/distribute/solar.py::Solar.veg_correct"]}
{"id": "C49", "title": "Two-stream coefficients satisfy the theory's constraints", "statement": "For single-scattering albedo in [0,1] and asymmetry in [0,1): the forward and backward coefficients sum to one, gamma1 - gamma2 is non-negative (zero exactly for conservative scattering) so the square root is real, and direct transmittance lies in [0,1] and decreases with optical depth; invalid irradiance is rejected.", "quantifier": "every omega, g, cosz, tau", "why_tests_cant": "real parameter ranges", "anchors": ["smrf/envphys/solar/twostream.py::twostream", "smrf/envphys/solar/twostream.py::mwgamma", "smrf/envphys/solar/twostream.py::beta_0"]}
{"id": "C50", "title": "Longwave canopy and terrain corrections are weighted means", "statement": "Canopy correction leaves cells at or below the height threshold unchanged and otherwise returns a value between incoming thermal and canopy emission; terrain correction returns a value between sky and terrain emission for view factors in [0,1].", "quantifier": "every cell value, height, transmissivity, view factor", "why_tests_cant": "all reals", "anchors": ["smrf/envphys/thermal/vegetation.py::thermal_correct_canopy", "smrf/envphys/thermal/clear_sky.py::thermal_correct_terrain"]}
{"id": "C51", "title": "Clouds never reduce longwave and clear sky is a fixed point", "statement": "Each longwave cloud correction responds to the cloud factor: it returns (approximately) clear-sky radiation when there is no cloud, never less than it otherwise, and never decreases as clouds increase.", "quantifier": "every clear-sky value, temperature and cloud factor", "why_tests_cant": "all reals and all four methods", "anchors": ["smrf/envphys/thermal/cloud.py::Garen2005", "smrf/envphys/thermal/cloud.py::Unsworth1975", "smrf/envphys/thermal/cloud.py::Kimball1982", "smrf/envphys/thermal/cloud.py::Crawford1999"]}
{"id": "C52", "title": "Terrain longwave uses absolute temperature", "statement": "The longwave contribution of surrounding terrain added by the thermal module is Stefan-Boltzmann emission at the air temperature in kelvin, hence it increases with air temperature and is independent of the choice of temperature zero.", "quantifier": "every air temperature and sky view factor", "why_tests_cant": "unit error visible only by comparing sub-zero temperatures", "anchors": ["smrf/distribute/thermal.py::th.distribute"]}
{"id": "C53", "title": "Inverse-distance weighting is a weighted mean of the stations", "statement": "At every grid cell the interpolated value lies between the smallest and largest station value with data, equals the common value when all stations agree, ignores stations without data, and at a station's own location gives a finite value near that station's.", "quantifier": "every station set, data with gaps, grid cell and power", "why_tests_cant": "all geometries incl. coincident points", "anchors": ["smrf/spatial/idw.py::IDW.calculateDistances", "smrf/spatial/idw.py::IDW.calculateWeights", "smrf/spatial/idw.py::IDW.calculateIDW"]}
{"id": "C54", "title": "Detrending followed by retrending reproduces elevation-linear data", "statement": "If station data are an affine function of elevation (with the permitted slope sign), the detrended interpolation reproduces that function at every grid cell; a trend of the forbidden sign is never imposed.", "quantifier": "every station set, trend, constraint, grid cell", "why_tests_cant": "all data sets; least squares exactness", "anchors": ["smrf/spatial/idw.py::IDW.detrendData", "smrf/spatial/idw.py::IDW.detrendedIDW", "smrf/spatial/idw.py::IDW.retrendData", "smrf/spatial/dk/dk.py::DK.detrendData"]}
{"id": "C55", "title": "Cached kriging weights are always the right ones", "statement": "Across any sequence of time steps with changing data gaps, the kriging weights used equal those that would be recomputed from scratch for the stations with data at that step.", "quantifier": "every sequence of missing-data patterns", "why_tests_cant": "cache staleness depends on history", "anchors": ["smrf/spatial/dk/dk.py::DK.calculate", "smrf/spatial/dk/dk.py::DK.calculateWeights"]}
{"id": "C56", "title": "Kriging weights returned are non-negative and sum to one", "statement": "The station-elimination loop terminates and on exit every returned weight is non-negative, dropped stations have weight zero and the weights sum to one.", "quantifier": "every station set, elevation vector and solver satisfying its equations", "why_tests_cant": "loop over subsets of stations, real elevations", "anchors": ["smrf/spatial/dk/krige.c::krige"]}
{"id": "C57", "title": "The linear solver solves the system it is given", "statement": "lusolv returns x with A x = b for every nonsingular matrix, via LU factors and forward/back substitution.", "quantifier": "every dimension, matrix and right-hand side", "why_tests_cant": "all matrices of all sizes", "anchors": ["smrf/spatial/dk/lusolv.c::lubksb", "smrf/spatial/dk/lusolv.c::ludcmp", "smrf/spatial/dk/lusolv.c::lusolv"]}
{"id": "C58", "title": "Distributed wind direction is an azimuth consistent with its components", "statement": "The distributed wind direction lies in [0,360) and its sine and cosine are proportional to the distributed eastward and northward unit components.", "quantifier": "every pair of components", "why_tests_cant": "all angles incl. quadrant boundaries", "anchors": ["smrf/distribute/wind/wind.py::Wind.distribute"]}
{"id": "C59", "title": "Wind direction binning picks the nearest sector", "statement": "The rounded direction used to select the upwind-slope table is one of 0, step, ..., 360-step and differs from the wind direction by at most half a step around the circle.", "quantifier": "every direction in [0,360) and every step dividing 360", "why_tests_cant": "all directions and steps incl. wrap-around", "anchors": ["smrf/distribute/wind/winstral.py::WinstralWindModel.simulateWind"]}
{"id": "C60", "title": "The terrain wind adjustment is defined for every exposure", "statement": "For every upwind-slope value the cell wind is the flat wind multiplied by the documented positive factor, never zero unless the flat wind is zero.", "quantifier": "every upwind slope in the clamped range", "why_tests_cant": "classes defined by strict inequalities leave isolated gaps", "anchors": ["smrf/distribute/wind/winstral.py::WinstralWindModel.simulateWind"]}
{"id": "C61", "title": "Station upwind-slope enhancement uses the station's own data", "statement": "For each station the flat-terrain wind is computed from that station's own upwind slope (or peak/override rule), independent of which stations were processed before it.", "quantifier": "every list of stations and override lists", "why_tests_cant": "order dependence over station lists", "anchors": ["smrf/distribute/wind/winstral.py::WinstralWindModel.stationMaxus"]}
{"id": "C62", "title": "The search line visits connected cells from the point to the far end", "statement": "The line walker used by the upwind-slope code starts at the given cell, moves by one cell along the major axis at each step and at most one along the minor axis, stays within half a cell of the ideal line, and reaches the end cell.", "quantifier": "every pair of start and end cells", "why_tests_cant": "all octants and lengths", "anchors": ["smrf/utils/wind/breshen.c::GetNextCellCoordinate", "smrf/utils/wind/breshen.c::InitializeLineData", "smrf/utils/wind/calc_wind.c::find_line"]}
{"id": "C63", "title": "The python line walker returns the line", "statement": "bresenham returns a non-empty path from start to end whose consecutive cells are adjacent, for every pair of cells.", "quantifier": "every pair of cells", "why_tests_cant": "all octants; failures are isolated to one", "anchors": ["smrf/utils/wind/model.py::wind_model.bresenham"]}
{"id": "C64", "title": "The upwind horizon is the true maximum slope", "statement": "For every elevation profile, the horizon index computed for a point maximises the slope from that point (plus instrument height) to the points upwind; the reported maximum upwind slope is that maximum.", "quantifier": "every profile length and elevations", "why_tests_cant": "stack-like algorithm with data-dependent jumps", "anchors": ["smrf/utils/wind/calc_wind.c::hord", "smrf/utils/wind/model.py::wind_model.hord", "smrf/utils/wind/calc_wind.c::calc_maxus"]}
{"id": "C65", "title": "Directional window averaging is rotation-invariant", "statement": "The windowed mean over directions uses, for every direction, the directions within half the window around the circle, treating 0 and 360 as the same direction.", "quantifier": "every direction, window and increment", "why_tests_cant": "wrap-around cases over all directions", "anchors": ["smrf/utils/wind/model.py::wind_model.windower"]}
{"id": "C66", "title": "WindNinja height conversion is positive and monotone", "statement": "Converting WindNinja speeds to measurement height with the log law gives non-negative speeds, zero exactly for zero input, increasing with input speed, for every roughness after limiting.", "quantifier": "every speed and roughness", "why_tests_cant": "all reals", "anchors": ["smrf/distribute/wind/wind_ninja.py::WindNinjaModel.convert_wind_ninja"]}
{"id": "C67", "title": "Cosine of the solar zenith is a cosine", "statement": "The rotated sun vector has mu in [-1,1] for every sun and observer position, so the square root and the arc cosine downstream are defined.", "quantifier": "every declination, hour angle, latitude and longitude", "why_tests_cant": "all real angles", "anchors": ["smrf/envphys/sunang.py::rotate", "smrf/envphys/sunang.py::sunpath"]}
{"id": "C68", "title": "Invalid positions are rejected", "statement": "sunpath raises an error for every latitude outside [-90,90], longitude outside [-180,180] or declination outside the earth's obliquity range and accepts all valid ones.", "quantifier": "every latitude, longitude, declination", "why_tests_cant": "validation for all reals", "anchors": ["smrf/envphys/sunang.py::sunpath"]}
{"id": "C69", "title": "The Kepler iteration converges", "statement": "The fixed-point iteration for the eccentric anomaly contracts toward a unique solution, so the loop terminates for every date whose anomaly is not zero and the result is within tolerance of the solution.", "quantifier": "every date, every iteration count", "why_tests_cant": "convergence is a statement about unbounded iterations", "anchors": ["smrf/envphys/sunang.py::ephemeris"]}
{"id": "C70", "title": "Topographic images come from their own file variable", "statement": "Each topographic image attribute holds the data of the variable with that name, and a missing variable is reported rather than replaced.", "quantifier": "every set of variables present in the file", "why_tests_cant": "depends on which variables are missing and in which order", "anchors": ["smrf/data/load_topo.py::Topo.readImages"]}
{"id": "C71", "title": "Station pixel indices are nearest pixels", "statement": "The pixel assigned to a station is a grid cell whose coordinate is at least as close to the station as every other cell's, along each axis.", "quantifier": "every grid axis and station coordinate", "why_tests_cant": "argmin over arbitrary arrays", "anchors": ["smrf/data/input_data.py::InputData.find_pixel_location"]}
{"id": "C72", "title": "WRF accumulated precipitation is converted without loss", "statement": "Hourly precipitation derived from WRF's running total sums back to the change of the running total over the period, is non-negative when the total never decreases, and depends only on consecutive totals.", "quantifier": "every series of running totals", "why_tests_cant": "telescoping over arbitrary lengths", "anchors": ["smrf/data/wrf.py::InputWRF.load"]}
{"id": "C73", "title": "Gridded wind direction means the same as in the distribution step", "statement": "Wind speed and direction derived from gridded eastward/northward components, when decomposed by the wind distribution, give back the original components.", "quantifier": "every pair of components", "why_tests_cant": "convention error is symmetric and invisible for diagonal winds", "anchors": ["smrf/data/hrrr_grib.py::InputGribHRRR.calculate_wind", "smrf/data/wrf.py::InputWRF.load", "smrf/distribute/wind/wind.py::Wind.distribute"]}
{"id": "C74", "title": "Derived cloud factor is a fraction and remembers daylight", "statement": "The cloud factor derived from modelled and clear-sky radiation is always in [0,1] once any daylight has been seen; at night it is the interpolation or carry-over of daylight values and never an invented value.", "quantifier": "every sequence of radiation images", "why_tests_cant": "history-dependent carry-over", "anchors": ["smrf/envphys/solar/cloud.py::get_hrrr_cloud", "smrf/data/hrrr_grib.py::InputGribHRRR.check_cloud_factor"]}
{"id": "C75", "title": "HRU output rows correspond to time steps", "statement": "In HRU output, each variable's table has one row per output time in time order, and step k of each variable is stored in row k.", "quantifier": "every number of variables and steps", "why_tests_cant": "index shared across variables shows only with two or more variables", "anchors": ["smrf/output/output_hru.py::output_hru.output"]}
{"id": "C76", "title": "CSV station filtering keeps exactly the requested stations and period", "statement": "Loading CSV data keeps exactly the requested stations that exist and the rows between start and end date inclusive, matching station names case-insensitively, and rejects empty selections.", "quantifier": "every table, station list and period", "why_tests_cant": "all tables and name cases", "anchors": ["smrf/data/csv.py::InputCSV.load"]}
{"id": "C77", "title": "Two-stream fluxes are physical", "statement": "For positive irradiance, sun above the horizon and parameters in the physical range (single-scattering albedo in [0,1), asymmetry in [0,1), ground reflectance in [0,1], positive optical depth) the two-stream computation succeeds, its own assertions hold, and total transmittance is at least direct transmittance, i.e. diffuse radiation is not negative.", "quantifier": "every cosz, omega, g, r0, tau", "why_tests_cant": "singular parameter values form a curve in a real parameter space; sampling misses it", "anchors": ["smrf/envphys/solar/twostream.py::twostream"]}
{"id": "C78", "title": "Clear-sky longwave is between zero and black-body emission", "statement": "Each clear-sky method yields a value between zero and black-body emission at the air temperature; marks1979 is at least the terrain's share of it and does not decrease with the dew point.", "quantifier": "every temperature above absolute zero, vapor pressure, dew point, elevation, sky view factor", "why_tests_cant": "all reals and all four methods", "anchors": ["smrf/envphys/core/topotherm.c::topotherm", "smrf/envphys/thermal/clear_sky.py::Prata1996", "smrf/envphys/thermal/clear_sky.py::Angstrom1918", "smrf/envphys/thermal/clear_sky.py::Dilly1998"]}
{"id": "C79", "title": "The C and Python versions of topotherm agree", "statement": "On every cell the compiled and the Python implementation of topotherm return the same value, and one rejects a cell exactly when the other does.", "quantifier": "every temperature, dew point, elevation and sky view factor", "why_tests_cant": "all reals, including the rejection boundary", "anchors": ["smrf/envphys/core/topotherm.c::topotherm", "smrf/envphys/thermal/topotherm.py::topotherm"]}
{"id": "C80", "title": "Every combination of thermal options runs", "statement": "For temperatures above absolute zero every combination of clear-sky method, cloud method, terrain and canopy correction yields the requested images without error.", "quantifier": "every configuration and input", "why_tests_cant": "all combinations of options", "anchors": ["smrf/distribute/thermal.py::th.initialize", "smrf/distribute/thermal.py::th.distribute"]}
{"id": "C81", "title": "The configured snow model is the one used", "statement": "phase_and_density returns the percent-snow and density images of exactly the model named in the configuration (susong1999, piecewise_susong1999 or marks2017), with percent snow in [0, 1], and raises ValueError for any other name.", "quantifier": "for all model names and all precipitation and temperature images of any size", "why_tests_cant": "tests call phase_and_density with one image per model; they cannot show that no other name is accepted or that percent snow stays in range for every image", "anchors": ["smrf/envphys/snow.py::phase_and_density", "smrf/envphys/nasde_model/"]}
{"id": "C82", "title": "More shelter never means more wind", "statement": "With the same flat-terrain wind, a cell with a larger upwind slope never gets more wind than one with a smaller upwind slope.", "quantifier": "every pair of upwind slopes and every flat wind", "why_tests_cant": "monotonicity over all pairs of reals, broken only across one class boundary", "anchors": ["smrf/distribute/wind/winstral.py::WinstralWindModel.simulateWind"]}
{"id": "C83", "title": "Adjusting the flattened station wind gives the measured wind", "statement": "Reducing a station's wind to flat terrain with its upwind slope and re-applying the terrain adjustment with the same slope gives the measured wind (times the height conversion).", "quantifier": "every slope and speed", "why_tests_cant": "two separately written piecewise formulas must be inverse on all reals", "anchors": ["smrf/distribute/wind/winstral.py::WinstralWindModel.stationMaxus", "smrf/distribute/wind/winstral.py::WinstralWindModel.simulateWind"]}
{"id": "C84", "title": "Vegetation changes the upwind slope once", "statement": "Each cell's upwind slope is increased by the value configured for its vegetation class, or by the default when the class is not configured, and by nothing else.", "quantifier": "every list of classes and every cell", "why_tests_cant": "all configurations", "anchors": ["smrf/distribute/wind/winstral.py::WinstralWindModel.simulateWind"]}
{"id": "C85", "title": "The upwind profile handed to the horizon search is the in-grid part of the line, without gaps", "statement": "For every grid, every start cell in the grid and every end cell, the arrays filled by calc_maxus hold, at positions 0 to n-1, exactly the cells of the line before it first leaves the grid, in order; every elevation is read inside the image and no uninitialised array element is later used.", "quantifier": "all grids, start cells in the grid, end cells whose coordinates fit a C short, all contents of uninitialised memory", "why_tests_cant": "The arrays are indexed by position on the line while n counts in-grid cells; a gap would show only for particular geometry and memory contents.", "anchors": ["smrf/utils/wind/calc_wind.c:94-117", "smrf/utils/wind/calc_wind.c:134-178"]}
{"id": "C86", "title": "A cell with no upwind cell in the grid gets maxus 0", "statement": "If the line from a cell leaves the grid at its first step (or has no step), the cell's maximum upwind slope is 0; other values are stored unchanged.", "quantifier": "all grids, elevations, instrument heights, wind directions and search distances", "why_tests_cant": "Relies on a division by zero giving minus infinity and arctan giving -90; with instrument height 0 the division is 0/0 and the NaN passes the correction.", "anchors": ["smrf/utils/wind/calc_wind.c:188-263", "smrf/utils/wind/model.py:212-213"]}
{"id": "C87", "title": "The upwind search goes in the direction the wind comes from", "statement": "For every cell, azimuth and search distance the end of the search is, along each axis, within half a cell of the point at that distance in the direction of the azimuth (clockwise from north).", "quantifier": "all cells, azimuths, distances and cell sizes", "why_tests_cant": "all real angles and distances; the row direction of the grid is never looked at", "anchors": ["smrf/utils/wind/model.py:182-193"]}
{"id": "C88", "title": "Filling the edges of a WindNinja grid is complete and leaves the data alone", "statement": "When filling succeeds no NaN is left and no cell that held data is changed; it succeeds whenever NaN are only along the left and bottom edges with at least two rows and columns of data, and it continues data that lie in a plane exactly.", "quantifier": "all image sizes, coordinates, data and NaN patterns", "why_tests_cant": "depends on which edges hold NaN and how many", "anchors": ["smrf/distribute/wind/wind_ninja.py:245-288"]}
{"id": "C89", "title": "Wind speed handed to other threads keeps its limits", "statement": "For every wind model the speed put into the queue is within the configured minimum and maximum, NaN stays NaN, and speeds within the limits are unchanged.", "quantifier": "all wind models, limits and speeds", "why_tests_cant": "the thread reads the wind model's attribute, not the limited one; it works only because the array is changed in place", "anchors": ["smrf/distribute/wind/wind.py:184-215", "smrf/utils/utils.py:137-161"]}
{"id": "C90", "title": "The sun position is defined for every date and place", "statement": "For every valid date from 1900 to 9999 and every latitude in [-90,90] and longitude in [-180,180] sunang returns a value: no assertion, ValueError or division by zero; the cosine is in [-1,1], the azimuth in [-180,180] degrees and the radius vector within 0.0176 of 1. The hour angle equals time of day plus equation of time modulo 360.", "quantifier": "every date, latitude and longitude", "why_tests_cant": "a check that fails for one second of one year crashes a run; the dates and real positions cannot be enumerated", "anchors": ["smrf/envphys/sunang.py::sunang", "smrf/envphys/sunang.py::ephemeris", "smrf/envphys/sunang.py::sunpath"]}
{"id": "C91", "title": "The true anomaly is the direction on the orbit", "statement": "For every eccentricity in [0,1) and every eccentric anomaly E off the aphelion, radius times (cos, sin) of the computed true anomaly is (cos E - e, sqrt(1-e^2) sin E), the distance satisfies the ellipse equation, and the angle is in [0,360).", "quantifier": "every eccentricity and eccentric anomaly", "why_tests_cant": "quadrant corrections must be right for all real angles", "anchors": ["smrf/envphys/sunang.py::ephemeris"]}
{"id": "C92", "title": "Right ascension and declination are the ecliptic direction", "statement": "For every ecliptic longitude off the solstices and the autumn equinox and every obliquity with positive cosine, the direction with the computed declination and right ascension is (cos L, sin L cos o, sin L sin o), and the right ascension is in [0,360).", "quantifier": "every longitude and obliquity", "why_tests_cant": "quadrant corrections must be right for all real angles", "anchors": ["smrf/envphys/sunang.py::ephemeris"]}
{"id": "C93", "title": "The day number counts days", "statement": "The integer part of the ephemeris time is the number of days since 31 December 1899 for every valid date.", "quantifier": "every date", "why_tests_cant": "the leap year rule and the truncation only differ in years outside the test data", "anchors": ["smrf/envphys/sunang.py::ephemeris"]}
{"id": "C94", "title": "The ephemeris is the direction of the sun", "statement": "For every date of 1900 to 2100 the declination, sun longitude and radius vector returned by ephemeris are those of a body on the Kepler orbit with Newcomb's mean elements at that time (perturbations at most 0.017 degrees), in equatorial coordinates; the sun longitude moves 15 degrees west per hour corrected by the equation of time; sunang returns the cosine of the angle between that direction and the zenith and the azimuth from south towards east.", "quantifier": "every date and place", "why_tests_cant": "the tests compare a handful of dates with stored values; quadrant and wrap-around errors depend on the date", "anchors": ["smrf/envphys/sunang.py::ephemeris", "smrf/envphys/sunang.py::sunang"]}
{"id": "C95", "title": "Cell size and centre of the basin", "statement": "The cell size is the mean spacing of the coordinate axis (absolute for y), equal to the spacing for evenly spaced axes; the centre of the basin is the mean of the coordinates of the cells inside the mask and lies within their bounding box.", "quantifier": "every axis and mask", "why_tests_cant": "all axes lengths, orientations and masks", "anchors": ["smrf/data/load_topo.py::Topo.readNetCDF", "smrf/data/load_topo.py::Topo.get_center"]}
{"id": "C96", "title": "HRU values are means over the unit", "statement": "The value written for a hydrologic response unit is the mean of the cells with its number that are not NaN, NaN if there are none, converted with the chosen unit conversion; cells of other units have no influence.", "quantifier": "every unit map and image", "why_tests_cant": "all maps, units without cells, NaN patterns", "anchors": ["smrf/output/output_hru.py::output_hru.output"]}
{"id": "C97", "title": "Every module finds the values of its stations", "statement": "After the tables are loaded each module distributes from exactly the stations that have all of its variables, and in every time step it finds a value for each of them under the name of the station.", "quantifier": "every set of tables, metadata and station lists", "why_tests_cant": "needs tables with different columns per variable", "anchors": ["smrf/framework/model_framework.py::SMRF.loadData", "smrf/distribute/image_data.py::image_data._initialize", "smrf/distribute/image_data.py::image_data._distribute"]}
{"id": "C98", "title": "Detrended gridded interpolation restores the trend", "statement": "Detrended interpolation of gridded data returns, at each pixel, the interpolated residuals plus the elevation trend there; data that are an affine function of elevation with an accepted slope are reproduced exactly; a rejected slope gives plain interpolation; with local trends each cell uses the nearest cells.", "quantifier": "every set of cells, data, interpolation weights and elevation", "why_tests_cant": "all geometries and weights; equality over all data", "anchors": ["smrf/spatial/grid.py::GRID.detrendedInterpolationMask", "smrf/spatial/grid.py::GRID.detrendedInterpolationLocal", "smrf/utils/utils.py::grid_interpolate_deconstructed"]}
{"id": "C99", "title": "The configured detrending is what every method does", "statement": "Whichever distribution method is configured, the data are detrended exactly when detrend is set and slopes of the sign excluded by detrend_slope are replaced by no trend; the step fails exactly when no station has a value.", "quantifier": "every method, configuration and data", "why_tests_cant": "method x configuration x data; sign of the fitted slope depends on all values", "anchors": ["smrf/distribute/image_data.py::image_data._distribute", "smrf/spatial/kriging.py::KRIGE.calculate", "smrf/spatial/dk/dk.py::DK.calculate"]}
{"id": "C100", "title": "Optical depth follows the air pressure", "statement": "The optical depth at the elevation of a cell is its value at the reference elevation scaled by the ratio of the pressures of the standard atmosphere, whatever reference is used; it falls with elevation and the direct beam rises with it.", "quantifier": "every elevation below the top of the standard atmosphere", "why_tests_cant": "real-valued monotonicity over a continuum", "anchors": ["smrf/envphys/solar/toporad.py", "smrf/envphys/solar/twostream.py"]}
{"id": "C101", "title": "A cell is in the shade exactly when its horizon is above the sun", "statement": "The direct beam of a cell is removed exactly when the horizon in the direction of the sun is higher than the sun.", "quantifier": "every horizon and sun angle", "why_tests_cant": "equivalence over a continuum of angles", "anchors": ["smrf/envphys/solar/toporad.py"]}
{"id": "C102", "title": "Solar irradiance follows the inverse square of the distance", "statement": "The irradiance on top of the atmosphere is the integral of the solar spectrum over the wavelength range divided by the square of the distance to the sun at noon of the day; it is the same for all times of a day, stays within 3.7 percent of the integral, and any list that is not two wavelengths is rejected.", "quantifier": "every date and wavelength range", "why_tests_cant": "all dates", "anchors": ["smrf/envphys/solar/irradiance.py"]}
{"id": "C103", "title": "Every grid cell in the box becomes one station of its own", "statement": "Loading a netCDF file gives exactly one station for each cell in the bounding box, with a name no other cell has and with the coordinates, elevation and values of that cell.", "quantifier": "every grid, bounding box and variable", "why_tests_cant": "needs all grid sizes; names as decimal strings of arbitrary length", "anchors": ["smrf/data/netcdf.py::InputNetcdf.load", "smrf/data/netcdf.py::metadata_name_from_index"]}
{"id": "C104", "title": "Input times are the times in the file", "statement": "The time of a record is the reference time plus its number of units, and the records of a WRF file are those between the start and the end of the run.", "quantifier": "every time value, unit, reference time and time zone", "why_tests_cant": "fractional times in every unit", "anchors": ["smrf/data/netcdf.py::InputNetcdf.load", "smrf/data/wrf.py::InputWRF.get_file_times", "smrf/data/wrf.py::InputWRF.load"]}
{"id": "C105", "title": "Threaded and serial HRRR runs use the same cloud factors", "statement": "With HRRR data loaded step by step the cloud factor of each step is the same in threaded and in serial runs, and every cell has a value.", "quantifier": "every sequence of cloud factor rows with arbitrary missing values", "why_tests_cant": "state carried through arbitrarily many steps", "anchors": ["smrf/data/hrrr_grib.py::InputGribHRRR.load_timestep", "smrf/data/hrrr_grib.py::InputGribHRRR.load_timestep_thread", "smrf/data/hrrr_grib.py::InputGribHRRR.check_cloud_factor", "smrf/framework/model_framework.py::SMRF.create_data_queue"]}
{"id": "C106", "title": "Measured wind is kept at the pixels of the stations", "statement": "After the simulated wind field is rescaled, the pixel of every wind station that was accepted holds the measured wind of that station and no other pixel is changed.", "quantifier": "every set of stations, pixels, measurements and wind field", "why_tests_cant": "arbitrary numbers of stations and orders of station lists", "anchors": ["smrf/distribute/wind/winstral.py::WinstralWindModel.simulateWind"]}
{"id": "C107", "title": "Missing cells of the simulated wind are interpolated between their neighbours", "statement": "Missing values of the simulated wind field are replaced by values between the nearest defined values of the field, and defined values are kept.", "quantifier": "every field and every pattern of missing cells", "why_tests_cant": "all patterns of missing cells", "anchors": ["smrf/distribute/wind/winstral.py::WinstralWindModel.simulateWind", "smrf/utils/utils.py::nan_helper"]}
{"id": "C108", "title": "Vegetation tables give every class its configured value", "statement": "The value used for a vegetation class is the one configured for that class, and the default where none is configured, for wind, albedo and redistribution of precipitation.", "quantifier": "every configuration section and set of classes", "why_tests_cant": "parsing of arbitrary key names and class numbers", "anchors": ["smrf/distribute/wind/winstral.py::WinstralWindModel", "smrf/distribute/precipitation.py::ppt.initialize", "smrf/distribute/albedo.py::Albedo", "smrf/envphys/precip.py::dist_precip_wind"]}
{"id": "C109", "title": "A restarted run continues the days since the last storm", "statement": "A run started from the storm_days file of an earlier run continues the state the earlier run had at that date.", "quantifier": "every run, restart date, precipitation and output frequency", "why_tests_cant": "equality of states after arbitrarily long runs", "anchors": ["smrf/distribute/precipitation.py::ppt.initialize"]}
{"id": "C110", "title": "The storm table and the steps of a run agree", "statement": "In a run with the marks2017 model every step with precipitation lies in exactly one storm of the table, which the state names; the run never fails for lack of a storm; after every step of a storm the storm total is the distributed mass of that storm.", "quantifier": "every precipitation table, threshold, storm gap, undercatch correction and temperature", "why_tests_cant": "storm segmentation, correction and the run are coupled over arbitrarily many steps", "anchors": ["smrf/distribute/precipitation.py::ppt.initialize", "smrf/distribute/precipitation.py::ppt.distribute_for_marks2017", "smrf/envphys/storms.py::tracking_by_station", "smrf/envphys/storms.py::clip_and_correct"]}
{"id": "C111", "title": "The parallel loops of the C code have no races", "statement": "Each parallel loop of the C extensions (thermal radiation, wet bulb temperature, dew point, kriging weights, upwind slope) leaves in every cell the value the sequential function gives for that cell, touches no other cell, and ends the process only if the function does for some cell; the result does not depend on the number of threads or on their order.", "quantifier": "every number of threads, division of the iterations, interleaving of statements, number of cells, input and initial memory", "why_tests_cant": "a race shows up only for some interleavings", "anchors": ["smrf/envphys/core/topotherm.c::topotherm", "smrf/envphys/core/iwbt.c::iwbt", "smrf/envphys/core/dewpt.c::dewpt", "smrf/spatial/dk/krige.c::krige_grid", "smrf/utils/wind/calc_wind.c::calc_maxus"]}
{"id": "C112", "title": "Wind directions from WindNinja lie between those of the file", "statement": "The direction of every cell of the model is between 0 and 360 degrees and lies between the directions at the corners of its triangle in the file of WindNinja; it is computed whenever the speed is, and a file with one direction gives this direction everywhere.", "quantifier": "every grid, triangulation, file of angles and position of the domain in the file", "why_tests_cant": "averaging angles goes wrong only across north and at the edge of the file", "anchors": ["smrf/distribute/wind/wind_ninja.py::WindNinjaModel.convert_wind_ninja", "smrf/utils/utils.py::grid_interpolate"]}
{"id": "C113", "title": "Each value of a WindNinja file is used at the centre of its cell", "statement": "The points made from the head of an ASCII grid and the values read from it agree place by place: the value in row r and column c is used at the centre of that cell, whatever the order of the lines of the head.", "quantifier": "every head, size and content of the file", "why_tests_cant": "a grid that is shifted or turned by one row still looks plausible", "anchors": ["smrf/utils/utils.py::get_asc_stats", "smrf/distribute/wind/wind_ninja.py::WindNinjaModel.initialize_interp", "smrf/distribute/wind/wind_ninja.py::WindNinjaModel.convert_wind_ninja"]}
{"id": "C114", "title": "Each time step reads its own WindNinja file", "statement": "Two time steps a minute or more apart read different files, in whatever time zones SMRF and WindNinja run; speed and angle come from different files.", "quantifier": "all instants, time zones and configurations", "why_tests_cant": "depends on the hour that is repeated at the end of summer time", "anchors": ["smrf/distribute/wind/wind_ninja.py::WindNinjaModel.wind_ninja_path", "smrf/distribute/wind/wind_ninja.py::WindNinjaModel.distribute"]}
{"id": "C115", "title": "The bounding box of gridded data contains the domain", "statement": "The box of latitudes and longitudes that is asked from the gridded data contains all cells of the model domain.", "quantifier": "every projection, domain and buffer", "why_tests_cant": "depends on the size of the domain and its distance from the meridian of the zone", "anchors": ["smrf/data/input_data.py::InputData.model_domain_grid", "smrf/data/input_data.py::InputData.get_latlon"]}
{"id": "C116", "title": "A run can be repeated from the backup of its input", "statement": "The tables that backup_input writes are loaded again by InputCSV with the same result as the data of the run.", "quantifier": "all data, dates and station lists", "why_tests_cant": "no test loads a backup again", "anchors": ["smrf/utils/utils.py::backup_input", "smrf/data/csv.py::InputCSV.load", "smrf/data/input_data.py::InputData.set_variables"]}
{"id": "C117", "title": "The configuration of the run script is the only one", "statement": "A configuration that is chosen exists and is the file given or the only file ending in .ini in the directory given; otherwise the run ends with a message.", "quantifier": "all directories and file names", "why_tests_cant": "all combinations of names", "anchors": ["smrf/utils/utils.py::find_configs", "smrf/utils/utils.py::handle_run_script_options"]}
{"id": "C118", "title": "The kriging code in C is memory safe and computes the weights of the model", "statement": "For arrays of the sizes that call_grid passes, with any numbers in them (NaN included) and any rounding, krige_grid reads and writes only inside its arrays, reads only what has been written, frees everything it allocates exactly once, does not overflow an int and ends; if it returns, every weight is written, and with exact arithmetic the weights are those of C56.", "quantifier": "all sizes, all contents of the arrays, all floating point arithmetics", "why_tests_cant": "uninitialised reads and accesses outside an array usually go unnoticed; NaN in the input takes paths no test takes", "anchors": ["smrf/spatial/dk/krige.c::krige_grid", "smrf/spatial/dk/krige.c::krige", "smrf/spatial/dk/lusolv.c::lusolv", "smrf/spatial/dk/lusolv.c::ludcmp", "smrf/spatial/dk/lusolv.c::lubksb", "smrf/spatial/dk/array.c", "smrf/spatial/dk/detrended_kriging.pyx::call_grid"]}
{"id": "C119", "title": "The upwind-slope code in C is memory safe and computes the slopes of the model", "statement": "For every grid with fewer than 2^31 cells and arrays of the matching sizes, with start cells in the grid and end cells anywhere, and for any numbers and any rounding, calc_maxus reads and writes only inside its arrays, reads only elements that have been written, overflows no int and ends, with every cell of the result written; with exact arithmetic the value of each cell is that of the model of C64 and C85. The call made by maxus_angle meets these conditions.", "quantifier": "all grids, all elevations and coordinates, all directions and distances, all floating point arithmetics", "why_tests_cant": "the arrays on the stack are filled with gaps allowed and read up to a count; an error would read stale memory and give a plausible angle", "anchors": ["smrf/utils/wind/calc_wind.c::calc_maxus", "smrf/utils/wind/calc_wind.c::find_line", "smrf/utils/wind/calc_wind.c::hord", "smrf/utils/wind/breshen.c::GetNextCellCoordinate", "smrf/utils/wind/wind_c.pyx::call_maxus", "smrf/utils/wind/model.py::maxus_angle"]}
{"id": "C120", "title": "The Cython wrappers treat every cell once, inside the arrays", "statement": "For images of one shape, ctopotherm, cdewpt and cwbt read and write only inside the arrays and leave in each cell of the output the calculation for the values of that cell, or end the process if the calculation does for some cell; arrays of another type or memory order are refused.", "quantifier": "all shapes, all values, any calculation for a cell", "why_tests_cant": "bounds checks are switched off; images of the size at which the cell count overflows do not occur in tests", "anchors": ["smrf/envphys/core/envphys_c.pyx::ctopotherm", "smrf/envphys/core/envphys_c.pyx::cdewpt", "smrf/envphys/core/envphys_c.pyx::cwbt", "smrf/envphys/core/topotherm.c::topotherm", "smrf/envphys/core/dewpt.c::dewpt", "smrf/envphys/core/iwbt.c::iwbt"]}
{"id": "C121", "title": "Every item of the configuration that a run reads is there", "statement": "For every section of the user that the check of the configuration accepts (only known items, values among the options) and every source of data, the section that results from the defaults and the recipes has all the items that the classes of the section read in a run, so that no run ends with a missing item.", "quantifier": "all sections of the user (air temperature, vapor pressure, cloud factor, precipitation, wind, albedo, thermal), all sources of data, both readings of the recipes", "why_tests_cant": "the recipes remove items depending on the values of others; the combinations are too many to try, and some items are only read in cold weather", "anchors": ["smrf/framework/recipes.ini", "smrf/framework/CoreConfig.ini", "smrf/distribute/image_data.py::_initialize", "smrf/distribute/image_data.py::_distribute", "smrf/distribute/precipitation.py::initialize", "smrf/distribute/precipitation.py::distribute", "smrf/envphys/precip.py::dist_precip_wind", "smrf/distribute/wind/wind.py", "smrf/distribute/wind/winstral.py", "smrf/distribute/wind/wind_ninja.py", "smrf/distribute/albedo.py", "smrf/distribute/thermal.py", "smrf/framework/model_framework.py::__init__"]}
{"id": "C122", "title": "The topographic break of a cell is the slope near the cell less the slope beyond", "statement": "For every grid of elevations, cell and direction along a row, a column or a diagonal, the break that tbreak computes is the angle of the steepest upwind cell up to the separation distance less the angle of the steepest upwind cell beyond it; the searches end the given distances away, and a run is accepted exactly if the distances are whole numbers of cells.", "quantifier": "all elevations, sizes of grids, cell sizes, distances, heights of the instrument and contents of the memory", "why_tests_cant": "the sign of the break depends on all cells of two searches; a test compares images and does not ask if a positive break can occur at all", "anchors": ["smrf/utils/wind/model.py::tbreak", "smrf/utils/wind/model.py::maxus_angle", "smrf/utils/wind/wind_c.py", "smrf/envphys/precip.py::dist_precip_wind"]}
{"id": "C123", "title": "A run in a local time zone has one record per step and the dates of the clock", "statement": "For every time zone (any first offset, any list of changes of the clock), every start, end and step: the steps are the instants from start to end, a row of the input is attached to the one instant at which the clock shows its time, every step has its own record in the output, the dates of the albedo decay are the instants at which the clock shows them, and the water day of a step is that of its clock.", "quantifier": "all zones, runs, tables of input and databases of zone names", "why_tests_cant": "a change of the clock is hit by two hours of a year; the tests run in UTC and MST, where the clock never changes and the first offset is the only one", "anchors": ["smrf/framework/model_framework.py::_setup_date_and_time", "smrf/framework/model_framework.py::__init__", "smrf/utils/utils.py::date_range", "smrf/utils/utils.py::water_day", "smrf/data/csv.py::load", "smrf/output/output_netcdf.py::output", "smrf/distribute/precipitation.py"]}
{"id": "C124", "title": "Every band of the solar spectrum has a positive irradiance and bands add up", "statement": "For all wavelengths a < b < c within the table of the solar spectrum, the irradiance of [a, b] is positive, that of [a, b] and [b, c] together is that of [a, c], the whole table makes the solar constant, and on every date the visible and the infrared band add up to the range that the clouds are measured with.", "quantifier": "all wavelengths of the table, all dates from 1900 on", "why_tests_cant": "the interpolation of Akima can fall below zero between positive points; a test integrates one or two bands", "anchors": ["smrf/envphys/solar/irradiance.py::solar_data", "smrf/envphys/solar/irradiance.py::solint", "smrf/envphys/solar/irradiance.py::direct_solar_irradiance", "smrf/envphys/constants.py"]}
{"id": "C125", "title": "A whole run keeps every image in its limits and never aborts", "statement": "For all configurations with sound limits, all states and all sequences of inputs, a run over all time steps ends without an abort, and in every time step and cell each published image (air temperature, vapor pressure, dew point, wind, precipitation and snow images, cloud factor, albedo, net solar, thermal) is within its configured limits, the dew point is below the air temperature, no radiation is negative and none is present at night.", "quantifier": "all configurations, initial states, inputs, domain sizes and numbers of time steps", "why_tests_cant": "the stages feed each other through a dozen images and the state is carried from step to step; a test runs a few hours of one basin", "anchors": ["smrf/framework/model_framework.py::SMRF.distribute_single_timestep", "smrf/framework/model_framework.py::SMRF.distribute_data_single", "smrf/distribute/vapor_pressure.py::vp.distribute", "smrf/distribute/precipitation.py::ppt.distribute", "smrf/distribute/solar.py::Solar.distribute", "smrf/distribute/thermal.py::th.distribute", "smrf/envphys/core/iwbt.c"]}
{"id": "C126", "title": "Single-precision times keep the steps of a run apart and a restart finds its record", "statement": "For all dates and any number of runs into the same output file, the times stored in single precision for different dates are different and in order, each date has one record with the value written last, and the date read from the file is the date of the step, so that a restart finds the record of its start date.", "quantifier": "all dates, all sequences of writes, all time steps in whole minutes", "why_tests_cant": "rounding depends on the distance from the start date and on the time step; the tests use hours of a few days", "anchors": ["smrf/output/output_netcdf.py::OutputNetcdf.__init__", "smrf/output/output_netcdf.py::OutputNetcdf.output", "smrf/distribute/precipitation.py::ppt.initialize"]}
{"id": "C127", "title": "The images of a time step fit together and follow from those of the step before", "statement": "For every run that ends and every time step: the dew point published is that of the published vapor pressure below the published air temperature, the precipitation temperature is the dew point or the wet-bulb temperature of the published images, snow fraction and density are those of the configured model at the published precipitation temperature, albedo uses the published days since the last storm, radiation the published albedo, cloud factor, temperature and vapor pressure; the days since the last storm continue those of the step before.", "quantifier": "all configurations, states, inputs, domain sizes and numbers of time steps", "why_tests_cant": "a module that reads an image before its limits are applied, or that of the step before, gives plausible values in every range check", "anchors": ["smrf/framework/model_framework.py::SMRF.distribute_single_timestep", "smrf/distribute/vapor_pressure.py::vp.distribute", "smrf/distribute/precipitation.py::ppt.distribute", "smrf/distribute/albedo.py::albedo.distribute", "smrf/distribute/solar.py::Solar.distribute", "smrf/distribute/thermal.py::th.distribute"]}
{"id": "C128", "title": "Runs into the same output directory complete each other's files", "statement": "For all sequences of runs into the same output file: the file keeps the start date, time zone and coordinates of the run that created it; each minute that any run wrote has one record with the image written last; the times are in order exactly if every step was in the file already or came after all others; a reader finds for each instant the image that was written for it last, on the coordinates of the run that wrote it; and no run destroys records of another.", "quantifier": "all sequences of runs, all start dates, zones, grids and steps", "why_tests_cant": "depends on the order of several runs, their zones and grids; a test starts with an empty directory and makes one run", "anchors": ["smrf/output/output_netcdf.py::OutputNetcdf.__init__", "smrf/output/output_netcdf.py::OutputNetcdf.output"]}
{"id": "C129", "title": "The files of a run hold the images of its output steps", "statement": "For every run of any length into an empty directory: the file of each requested variable has exactly one record for every step whose index is a multiple of the output frequency, in order, with the image that this step published times the mask; nothing else is written; a run that aborts in a step leaves the files of the run that ends before it; all values are within the limits of the variable where the mask is one and zero where it is zero.", "quantifier": "all configurations, inputs, domain sizes, numbers of steps, frequencies, time steps, variables and masks", "why_tests_cant": "joins distribution, output frequency, time coordinate and mask over a whole run; a test compares a few files of one run with stored ones", "anchors": ["smrf/framework/model_framework.py::SMRF.disttribute_data_serial", "smrf/framework/model_framework.py::SMRF.output", "smrf/output/output_netcdf.py::OutputNetcdf.output"]}
{"id": "C130", "title": "Each time step uses the input of its own date, serial or threaded", "statement": "For every table of input data, period and date: a time step gets the row of its date if there is exactly one in the period of the run, in the serial run (lookup in the table) and in the threaded run (data queue) alike; otherwise the run ends with an error within a bounded time.", "quantifier": "all tables, periods, dates, time-outs and waiting times", "why_tests_cant": "a gap or a doubled date in the input shows only at one step of a long run, and a thread that waits for ever cannot be told from a slow one by a test", "anchors": ["smrf/data/input_data.py::InputData.set_variables", "smrf/framework/model_framework.py::SMRF.distribute_single_timestep", "smrf/framework/model_framework.py::SMRF.create_data_queue", "smrf/utils/queue.py::DateQueueThreading.get"]}
{"id": "C131", "title": "The library of upwind slopes serves every wind direction with the slopes of the nearest direction", "statement": "For every increment that divides 360, every wind azimuth and every cell: the library that gen_maxus writes holds the slopes of every direction under that direction, and the wind model reads for the cell the slopes of a direction that no other direction of the library is nearer to, going around the circle; after the windower, the mean of the slopes of the directions at most half a window away. The windowed file never overwrites the library.", "quantifier": "all increments, wind azimuths in [0,360), cells, libraries, windows that are even multiples of the increment, file names", "why_tests_cant": "A run uses one library with one increment and the wind directions that its stations report.", "anchors": ["scripts/gen_maxus", "smrf/utils/wind/model.py:67-104", "smrf/utils/wind/model.py:217-269", "smrf/utils/wind/model.py:440-512", "smrf/distribute/wind/winstral.py:208-222", "smrf/distribute/wind/winstral.py:314-315"]}
{"id": "C132", "title": "A threaded run publishes the images and leaves the files of the serial run", "statement": "For every job whose serial run ends without error and every interleaving of the threads: each value that the threads publish for an output variable and date is the image that the serial run computes for that date, every state can go on to the end, and at the end the output thread has left the same files as the serial run: for every requested variable one record per date with the image of the date.", "quantifier": "all configurations of the modules, inputs, numbers of dates, queue capacities, requested variables, masks and interleavings of the threads", "why_tests_cant": "A test runs one job under the interleavings that the scheduler happens to choose, and compares the files of two runs that may differ in no more than those.", "anchors": ["smrf/framework/model_framework.py:365-402", "smrf/framework/model_framework.py:404-484", "smrf/framework/model_framework.py:486-632", "smrf/utils/queue.py:240-300", "smrf/distribute/solar.py:362-410", "smrf/distribute/precipitation.py:470-520"]}
{"id": "C133", "title": "Every station of the Winstral wind model gets the enhancement that the configuration gives for it", "statement": "Whatever the stations are called, however upper and lower case are written, in whatever order stations and items come and whatever was initialised before: a station with an item of its own in the section [wind] gets the number of this item, every other station gets station_default, and at every time step the slope of the station is that of the library for its wind direction plus this enhancement, cut to 35 degrees.", "quantifier": "all sections, lists of stations, names, libraries, wind directions and speeds", "why_tests_cant": "Tests use a handful of stations whose names are not options of the section, and initialise the model once.", "anchors": ["smrf/distribute/wind/winstral.py:125-149", "smrf/distribute/wind/winstral.py:290-369", "smrf/data/csv.py:43-48", "smrf/distribute/image_data.py:157-161"]}
{"id": "C134", "title": "A WRF file is loaded into the stations and records of its cells", "statement": "Loading a WRF file gives one station for each grid cell in the bounding box, with its own name, coordinates and elevation; the columns of the station hold the converted values of that cell in exactly the records between the dates of the run, the precipitation being the change of the total since the record before; the cloud factor is a fraction.", "quantifier": "all files, grid sizes, numbers of records and levels, boxes, dates and time zones, coordinates with or without the dimension of the time", "why_tests_cant": "The test has one file of one shape, whose coordinates do not have the dimension of the time, and the time zone UTC.", "anchors": ["smrf/data/wrf.py:59-92", "smrf/data/wrf.py:94-180", "smrf/data/netcdf.py:9-10"]}
{"id": "C135", "title": "A run delivers the output that the configuration offers", "statement": "For every request made of the variables that the configuration offers, 'all' included, and every file type that the framework knows, a run ends without an exception, has a file for each variable meant, and writes every step whose number is a multiple of the frequency.", "quantifier": "all requests, file types, frequencies and numbers of steps", "why_tests_cant": "The tests ask for a few variables by name and only for netCDF.", "anchors": ["smrf/framework/model_framework.py:634-749", "smrf/framework/CoreConfig.ini:1129-1165", "smrf/output/output_hru.py:31-113"]}
{"id": "C136", "title": "An exception in one thread ends a threaded run with that exception", "statement": "If a module raises an exception at some date, a threaded run ends, and ends with the exception, as a serial run does: it neither waits for ever nor reports success with variables missing from the output.", "quantifier": "all networks of threads with single writers (and the network of SMRF for every configuration), all capacities, numbers of dates, schedules, time-outs, and all sets of threads and dates at which code raises", "why_tests_cant": "The tests run threads that do not fail; a hang cannot be observed in finite time, and which thread waits where depends on the schedule.", "anchors": ["smrf/framework/model_framework.py:486-531", "smrf/framework/model_framework.py:533-632", "smrf/utils/queue.py:68-194", "smrf/utils/queue.py:217-235"]}
{"id": "C137", "title": "The images of a time step do not depend on later input", "statement": "What a run publishes and writes for a time step depends only on the input up to that step: two runs whose input agrees in the first k steps agree in the images and records of these steps, and a run that is stopped after k steps has produced the first part of the longer run.", "quantifier": "all configurations, initial states and inputs of any length, all k; threaded runs with any schedules, queue sizes and lengths; all storm tables, cloud series and running totals", "why_tests_cant": "A test compares one run with stored output; it never pairs two runs with equal beginnings and different continuations.", "anchors": ["smrf/framework/model_framework.py:365-484", "smrf/framework/model_framework.py:486-531", "smrf/envphys/storms.py:114-210", "smrf/envphys/storms.py:269-323", "smrf/distribute/precipitation.py:177-210", "smrf/envphys/solar/cloud.py:62-88", "smrf/data/hrrr_grib.py:94-221", "smrf/data/wrf.py:179-180"]}
{"id": "C138", "title": "A run over a part of the domain gives the images of the whole run at its cells", "statement": "Cut a part out of the domain (topo maps, interpolated images and stored state, cell by cell): a run over the part does not abort where the run over the domain does not, and publishes in every time step, for every variable, exactly the images of the run over the domain at the cells of the part. In particular the numbering of the cells does not matter.", "quantifier": "all configurations, domains, parts (any selection of cells, also repeated), initial states and inputs of any length", "why_tests_cant": "A test has one basin; the dependence of a cell on the rest of the domain shows only when the same cell is run in two domains, and for some of the models only when it snows in one of them.", "anchors": ["smrf/framework/model_framework.py:404-484", "smrf/envphys/storms.py:5-111", "smrf/envphys/solar/toporad.py:26-90", "smrf/distribute/precipitation.py:236-456", "smrf/envphys/nasde_model/marks_2017.py:86-207", "smrf/envphys/nasde_model/susong_1999.py:78-116", "smrf/envphys/precip.py:99-211"]}
{"id": "C139", "title": "The order in which the stations are listed does not matter", "statement": "List the stations (with their data) in another order: inverse distance weighting, detrended inverse distance weighting and detrended kriging give the same images, kriging the same weight for every station, and the Winstral model the same wind.", "quantifier": "all lists of stations and all orders of them, all data with any gaps, all grids, any number of time steps, any contents of uninitialised memory", "why_tests_cant": "The stations of the tests come from one metadata file, in one order; that the kriging elimination depends on the order shows only for stations of the same elevation.", "anchors": ["smrf/spatial/idw.py:14-144", "smrf/spatial/dk/dk.py:62-168", "smrf/spatial/dk/krige.c:66-216", "smrf/distribute/wind/winstral.py:276-285", "smrf/distribute/image_data.py:228"]}
{"id": "C140", "title": "Origin, axes and units of the coordinates do not matter, and the images follow the unit of the data", "statement": "Measure the places of stations and cells from another origin, along other axes (turned or mirrored) and in another unit, and the heights from another level and in another unit: inverse distance weighting, detrended inverse distance weighting and detrended kriging give the same images. With the data in another unit (a times the number plus b) the kriged images are the images in that unit.", "quantifier": "all similarities of the plane, all positive units and all levels of height, all stations, data with any gaps, all grids, exponents, slope constraints, any number of time steps, any contents of uninitialised memory", "why_tests_cant": "The tests have one basin in one projection with elevations in metres above the sea; that kriging treats stations at or below zero in another way shows only in another datum.", "anchors": ["smrf/spatial/idw.py:14-144", "smrf/spatial/dk/dk.py:62-168", "smrf/spatial/dk/krige.c:66-216"]}
{"id": "C141", "title": "Generic kriging estimates every cell at its own place and elevation from the stations with data, with the configured options", "statement": "With distribution = kriging the value of cell (i, j) is the pykrige estimate at the place x[j], y[i] of that cell, made from the stations that have a value at the step and with the configured krig_* options; with detrend the residuals of the fitted line are estimated and the line at the elevation of the cell is added, so that data affine in the elevation are reproduced. The variance image has the variances of the same estimates. A station without a value has no influence, and no step depends on the steps before.", "quantifier": "all station lists, all gaps, all grids, all configurations, all estimators, any number of time steps and any earlier state of the instance", "why_tests_cant": "pykrige is called with one row and one column of the grid and fits a variogram to the values, so that a transposed grid or a gap handled wrongly gives plausible numbers; no test uses geographic coordinates.", "anchors": ["smrf/spatial/kriging.py:11-147", "smrf/data/load_topo.py:62-65", "smrf/distribute/image_data.py:197-203"]}
{"id": "C142", "title": "beta_0 is the part of the light that is scattered backwards", "statement": "For every sun above the horizon and every asymmetry g with 0 <= g < 1, beta_0 returns the backward fraction of the phase function sum (2n+1) g^n P_n(mu) P_n(nu) with the Legendre polynomials P_n, i.e. half its integral over nu from -1 to 0, with an error of at most the tolerance 1e-9; when the series does not converge it says so.", "quantifier": "every cosine of the sun in (0, 1], every asymmetry in [0, 1)", "why_tests_cant": "the polynomials, the integrals and the coefficients come from three recurrences at once; the sum stops by a rule on one term, which at isolated sun angles is small by chance, and no sample of angles hits these.", "anchors": ["smrf/envphys/solar/twostream.py:170-247"]}
{"id": "C143", "title": "The exit status of run_smrf says whether the run was carried out", "statement": "A call of run_smrf with a path to one configuration file (or a directory with one) exits with status 0 exactly if the run was carried out: the configuration has no errors, the dates are not in the future for station data, the loader is that of the data the configuration asks for, and every phase ended without an exception; otherwise the status is not 0. The full configuration is written to the output directory exactly if it has no errors; the flags of the instance (gridded data, HRRR step by step) fit the loader.", "quantifier": "all paths and directory contents, all configurations, all points in time, all outcomes of the phases", "why_tests_cant": "the status is decided by exceptions and sys.exit in five functions of three files; the tests call the functions within python, where the status is not seen.", "anchors": ["scripts/run_smrf:23-39", "smrf/utils/utils.py:82-112", "smrf/framework/model_framework.py:92-181", "smrf/framework/model_framework.py:774-820", "smrf/data/input_data.py:70-114"]}
{"id": "C144", "title": "Rounding in inverse distance weighting stays within a bound", "statement": "Computed with rounding after every operation and in any order of addition, a cell with no station at its place differs from the exact inverse distance weighted mean of the stations with data at most by (q^2 r^(6p+4+2h) - 1) times the weighted mean of the absolute values, where r = 1/(1-u), u is the relative error of an operation, q the factor by which power is off, p the power, h the longest chain of additions; in double precision with power 2 and n stations at most by (n+8)/2^51 times the largest absolute value. With a trend the same holds for the mean of the residuals plus the trend at the cell, with five more roundings. Cells lie within the range of the data.", "quantifier": "all stations, data, cells, powers, roundings with relative error, orders of addition", "why_tests_cant": "tests compare with a tolerance for a few stations; the bound is about every arrangement of stations and every order in which numpy may add.", "anchors": ["smrf/spatial/idw.py:52-144"]}
{"id": "C145", "title": "Every value of the HRRR tables belongs to its time and cell", "statement": "parse_data hands on, for every time and cell of the air temperature, the vapor pressure of the temperature and humidity of that time and cell, speed and direction of the wind components of that time and cell, their precipitation, and the cloud factor of the radiation of that cell at the times of the table; the times are those of the time zone, whatever the order of rows and columns in the tables.", "quantifier": "all tables (any numbers of times and cells, any labels, NaN), all time zones", "why_tests_cant": "the tests load one file, in which all tables have the same rows and columns in the same order; a mix-up of labels and positions gives plausible values.", "anchors": ["smrf/data/hrrr_grib.py:122-195", "smrf/envphys/solar/cloud.py:46-88"]}
{"id": "C146", "title": "Reflectance and transmittance solve the two-stream equations, and no light is created", "statement": "Whenever twostream succeeds with omega and g below one, its reflectance is the upward flux at the top and its transmittance the downward flux (beam and diffuse) at the ground of the solution of the two-stream differential equations with the coefficients of Meador and Weaver and ground reflectance R0; layers it takes for infinitely thick get the reflectance of the bounded solution without a bottom. When light is scattered back (omega (4 - 3 g) > 1) the fluxes are nowhere negative, the net flux falls with depth, and the light leaving at the top plus that taken up by the ground is at most the beam that came in.", "quantifier": "all sun angles above the horizon, optical depths, single scattering albedos in [0,1), asymmetries in [0,1), ground reflectances up to 1; all differentiable fluxes", "why_tests_cant": "the tests compare a few numbers with those of the C program the formulas were taken from; a formula that is slightly wrong in the R0 terms still gives plausible numbers.", "anchors": ["smrf/envphys/solar/twostream.py:4-128", "smrf/envphys/solar/twostream.py:131-167", "smrf/envphys/solar/toporad.py:192-205"]}
{"id": "C147", "title": "Kriging gives the best linear unbiased estimate", "statement": "For values with a linear variogram (mean square differences proportional to the distance) the weights computed for a cell have the least mean square error of all weights that sum to one, for any stations at different places.", "quantifier": "all lists of stations at different places, all cells and elevations, all values with a linear variogram in any space with an inner product, all competing weights, unknown memory contents", "why_tests_cant": "optimality is a statement about all other weights and all random fields; the tests compare one image with a stored one.", "anchors": ["smrf/spatial/dk/krige.c:66-216", "smrf/spatial/dk/dk.py:98-137"]}
{"id": "C148", "title": "Kriging weights and the semivariogram", "statement": "The weights of detrended kriging do not depend on the slope and the nugget of the linear semivariogram, so the distance can stand for it, and stations beyond some distance are not used (as the user guide says).", "quantifier": "all stations at different places, cells, elevations, slopes and nuggets, unknown memory contents", "why_tests_cant": "the slope and the nugget are not inputs of the program, so no run of it can vary them.", "anchors": ["smrf/spatial/dk/krige.c:66-216", "smrf/spatial/dk/dk.py:98-137", "docs/user_guide/dist_methods.rst:106-131"]}
{"id": "C149", "title": "Rounding in the storm clock stays within a bound", "statement": "With rounding after every operation the clock of a cell shows, after k steps without a storm there, the time since the last storm up to the factors (1-u)^(k+2) and (1+u)^(k+2), whatever came before; in double precision and with steps of a minute or longer it is right within a hundredth of a second for 366 days, and the day of the last storm within a second.", "quantifier": "all sequences of steps, all images, start values, time steps, thresholds, all roundings with relative error u < 1", "why_tests_cant": "a drift of rounding shows only after many steps; the tests run a few hours.", "anchors": ["smrf/envphys/storms.py:70-111", "smrf/distribute/precipitation.py:384-406"]}
{"id": "C150", "title": "A configuration item does what its description says: end of storms, albedo", "statement": "The number of steps that ends a storm is the item named after the snow density model in use, and the item of the other model has no effect on any run; with correct_albedo off the net solar radiation is the incoming radiation, with it on the radiation times one minus albedo.", "quantifier": "all configurations, runs (lists of steps), start states, images, distributions, phase models", "why_tests_cant": "a run with one configuration cannot show that an item is ignored, nor that another item acts in its place; the effect appears only at cells outside the snow in a step in which it snows elsewhere.", "anchors": ["smrf/framework/CoreConfig.ini:620-630", "smrf/distribute/precipitation.py:169", "smrf/distribute/precipitation.py:430-437", "smrf/framework/CoreConfig.ini:1022-1025", "smrf/distribute/solar.py:335", "smrf/distribute/solar.py:469-493"]}
{"id": "C151", "title": "The correction for storms conserves precipitation up to rounding", "statement": "With rounding after every operation, clip_and_correct leaves exactly nothing outside the storms, takes the same branches as without rounding, gives every value during a storm up to a factor (1/(1-u))^(d+d'+2), and conserves the total of every station that has precipitation during a storm (or none at all) up to the same factor, where d and d' are the depths of the two sums; in double precision within 1e-10 of the total for up to 100000 rows, in whatever order the columns are added.", "quantifier": "all tables without negative values (NaN allowed), storm lists, selections of stations, orders of addition, roundings with relative error u < 1/2", "why_tests_cant": "the error of a sum depends on the order and the length; the comparison of a sum with zero could go the other way through rounding only for rare tables.", "anchors": ["smrf/envphys/storms.py:269-323"]}
{"id": "C152", "title": "The linear solver is backward stable", "statement": "With rounding after every operation, the result of lusolv is the exact solution of a system whose matrix differs from the given one, entry by entry, by at most gamma times the largest number of its row, with gamma depending only on the size and on the precision (1e-11 for 11 equations, 2e-8 for 21 in double precision); when it gives up, a matrix within that distance is singular.", "quantifier": "all matrices, sizes, right-hand sides without negative numbers, contents of uninitialised memory, roundings with relative error u < 1/2", "why_tests_cant": "near-singular and badly scaled systems are rare in samples; the error depends on the pivots chosen, which are themselves chosen from rounded numbers.", "anchors": ["smrf/spatial/dk/lusolv.c:26-202"]}
{"id": "C153", "title": "The kriging weights survive rounding", "statement": "With rounding after every operation in the solver, krige always ends; its weights satisfy the kriging equations of the stations kept up to gamma, are not negative, sum to one up to 8 gamma R (R the largest distance), and an estimate stays in the range of the station values up to the same relative error; exit(0) happens only when the equations of some stations are within gamma of singular. In double precision with at most 10 stations and distances up to 1000 km the sum of the weights is within 8e-5 of one.", "quantifier": "all numbers of stations, distances, elevations, contents of uninitialised memory, roundings with relative error u < 1/2", "why_tests_cant": "which station is dropped depends on the sign of a rounded number; the path through the elimination differs from that of exact arithmetic for rare positions.", "anchors": ["smrf/spatial/dk/krige.c:66-216", "smrf/spatial/dk/lusolv.c:26-202"]}
{"id": "C154", "title": "A restart does not change the storm clock beyond the precision of the file", "statement": "The clock of a run restarted from storm_days.nc stays within one unit in the last place (of the precision of the file) of the clock of the uninterrupted run. Exact for a file in double precision; with the default single precision the array that is read keeps its type, so the clock runs in single precision to the end of the run and drifts: by more than 20 minutes within 125 dry days, at most five hours within a year.", "quantifier": "all time steps, clocks, histories of dry and wet steps before and after the restart", "why_tests_cant": "the drift of a single step is below any tolerance used in tests; it only shows after thousands of steps.", "anchors": ["smrf/distribute/precipitation.py:119-162", "smrf/distribute/precipitation.py:384-395", "smrf/envphys/storms.py:94-111", "smrf/output/output_netcdf.py:57-93", "smrf/framework/CoreConfig.ini:1167-1170"]}
{"id": "C155", "title": "The coordinates in the output files identify the cells", "statement": "The x and y axes written to the output files and to the maxus library are those of the topo file rounded to single precision: exact for multiples of half a metre, less than 0.6 m away below 10000 km, and in the same order when the cells are at least 1.2 m wide. The option netcdf_output_precision = double does not apply to them, so for smaller cells different columns or rows get the same coordinate.", "quantifier": "all axes, both settings of the precision", "why_tests_cant": "test domains have cells of 30 m or more with coordinates that are whole metres, for which the rounding cannot be seen.", "anchors": ["smrf/output/output_netcdf.py:57-93", "smrf/output/output_netcdf.py:139-140", "smrf/utils/wind/model.py:474-497", "smrf/data/load_topo.py:62-63"]}
{"id": "C156", "title": "The limits of the images hold in the output files", "statement": "The numbers in the output files of a whole run are those of the images rounded once to the type of the file, so the files keep the order of values (the dew point is never above the air temperature) and the limits of the configuration, if these limits are numbers of that type. That is so for all default limits except the lowest wind speed 0.447, for which a file in single precision holds 0.44699999690; files in double precision hold the images.", "quantifier": "all configurations, inputs, numbers of steps, output options, both precisions", "why_tests_cant": "a comparison with a tolerance does not see the last digit; that all values of all runs stay in order needs monotone rounding.", "anchors": ["smrf/output/output_netcdf.py:57-93", "smrf/output/output_netcdf.py:148-188", "smrf/framework/model_framework.py:704-749", "smrf/framework/CoreConfig.ini:394-402", "smrf/utils/utils.py:137-161"]}
{"id": "C157", "title": "A run in two parts gives the images of the run in one part", "statement": "A run that is started again after some step, with the days since the last storm of that step (storm_days_restart), computes in every later step the images that the uninterrupted run computes. With station data and the model marks2017 this holds of every image but the storm total, given the same storms; with gridded data if the last storm is over in every cell at the restart; the storms and the rows of precipitation are the same if the first part ends with a dry spell of the configured length and there is no precipitation outside storms. It is false during a storm, after drizzle, and for the model susong1999, whose storm mass is not restored.", "quantifier": "all configurations, inputs, numbers of steps before and after the restart, precipitation records", "why_tests_cant": "a test restarts at one point of one record; that no state is lost at any point for any input needs a simulation between the two runs.", "anchors": ["smrf/distribute/precipitation.py:119-162", "smrf/distribute/precipitation.py:327-406", "smrf/distribute/precipitation.py:408-456", "smrf/envphys/storms.py:8-67", "smrf/envphys/storms.py:114-210", "smrf/envphys/storms.py:269-323", "smrf/framework/model_framework.py:365-402"]}
{"id": "C158", "title": "A run that reads the storm clock from the files of another run goes on as that run would have", "statement": "A run configured with storm_days_restart, whose start date is a step of an earlier run, computes the images of one run over the steps before that date and its own steps. This holds with station data and marks2017 if the earlier run wrote every step, in double precision and without a mask, and the start date is a number of whole quarters of an hour after its start. In general the clock read is that of the output step before the start date, masked and rounded; for any start date that is not an output step, not before the end of the earlier run, or not a number of quarters of an hour after its start, the clock is set to zero.", "quantifier": "all configurations, inputs, lengths of both runs, start steps, output frequencies, masks, precisions; files up to 2^18 hours", "why_tests_cant": "which dates survive storage as single precision hours depends on divisibility by 15 minutes; tests restart at whole hours. The two runs and the files between them have unboundedly many states.", "anchors": ["smrf/distribute/precipitation.py:132-162", "smrf/output/output_netcdf.py:86-98", "smrf/output/output_netcdf.py:148-188", "smrf/framework/model_framework.py:365-402", "smrf/framework/model_framework.py:704-749"]}
{"id": "C159", "title": "The single precision number in the dew-point loop costs at most 2^-15 degrees", "statement": "The dew point of a cell is kept in a C float while it is converted to Celsius, and the solver's tolerance arrives as a float. For dew points up to 390 K the image is within 2^-15 degrees of the solver's result, the order of the cells is kept, the dew point is below the air temperature after the clamp, and a dew point that was not clamped goes into the output files unchanged. For a vapour pressure that is the saturation pressure of a temperature T, the image is within twice the tolerance plus 2^-14 of T. The continuous share of snow changes by less than 2^-15; the tabulated one only within 2^-15 degrees of an edge of the table.", "quantifier": "all temperatures from 0 to 390 K, all air temperatures up to 1000 in size, all tolerances from 0.0002 to 1", "why_tests_cant": "the spacing of the floats is 2^-15 only between 256 and 512 K and the cells affected lie in intervals of that width around the edges of the snow table; comparing images with a gold file hides errors of this size.", "anchors": ["smrf/envphys/core/dewpt.c:14-49", "smrf/envphys/core/envphys_c.pyx:73-97", "smrf/distribute/vapor_pressure.py:134-147", "smrf/envphys/nasde_model/susong_1999.py:92-109"]}
{"id": "C160", "title": "A run logs its messages", "statement": "A run set up by SMRFLogger appends every message of the configured level, in order, to the configured file or to the console, and writes nothing elsewhere; log files only grow; the constructor fails exactly on an unknown level or a log file without directory. This holds for the first run of a process. In general the messages logged are those of loggers that had not been used before the run: setting up the log a second time disables every logger made so far, and a second run with the same modules logs nothing.", "quantifier": "all histories of a process (runs, configurations and messages in any number and order)", "why_tests_cant": "depends on what the process did before; every test looks at one run and none at the log.", "anchors": ["smrf/framework/logger.py:7-60", "smrf/framework/model_framework.py:108-113", "smrf/distribute/image_data.py:56"]}
{"id": "C161", "title": "Rounding in a kriged cell stays within a bound", "statement": "With a rounding after every operation and any order of the sum over the stations, a cell of detrended kriging is the weighted sum of the residuals plus the trend up to a bound of the size of the rounding times the sum of the magnitudes; data on the trend line are continued to every cell up to that bound; two orders of the sum differ by at most twice the bound. Without a trend a cell lies between the smallest and the largest value of the stations, up to the errors of the weights and of the sum: one part in ten thousand in double precision for at most 10 stations within 1000 km. The last holds when all stations are above sea level.", "quantifier": "all station sets, weights, data, trends, cell elevations, orders of summation and roundings with a relative error below one half", "why_tests_cant": "the worst case of the rounding over all data and orders of summation is not found by sampling; the gold files have a fixed set of stations.", "anchors": ["smrf/spatial/dk/dk.py:62-97", "smrf/spatial/dk/dk.py:134-168", "smrf/spatial/dk/krige.c:66-216"]}
{"id": "C162", "title": "Cutting the digits of the sun position keeps its ranges and order", "statement": "At a single position sunang prints its results with six decimals or five significant digits and reads the text back. The cosine of the zenith angle stays in [-1,1] and moves by at most 5e-7, the azimuth stays within 180 degrees and moves by at most 0.005 degrees, the radius vector moves by at most 5e-5 (5e-6 below one); all three keep their order, and cutting the cosine twice is cutting it once. The sun counts as up exactly when it is above the horizon. (The last is false: it counts as up exactly when the cosine exceeds 5e-7.)", "quantifier": "all real results, and all dates from 1900 to 9999 and all positions on the earth", "why_tests_cant": "the values next to a rounding boundary, in particular those of a sun at the horizon, are hit by no test date.", "anchors": ["smrf/envphys/sunang.py:37-51", "smrf/distribute/solar.py:289", "smrf/envphys/solar/model.py:37", "smrf/framework/model_framework.py:413-425"]}
{"id": "C163", "title": "The two-stream coefficients survive rounding", "statement": "With a rounding after every operation, gam1 is not below gam2, so that twostream raises no ValueError for a sun above the horizon, a scattering albedo between zero and one and an asymmetry below one; when gam1 is above gam2 and the asymmetry is at most 0.9 the exponent of the diffuse light is positive. (False for conservative scattering, albedo one: the two numbers are equal but computed in two ways, and the first can be rounded to the lower one. It holds when the albedo is below one by more than 64 units of the rounding, 2^-46 in double precision.)", "quantifier": "all sun heights with a cosine from 1e-7 on, all albedos and asymmetries, all roundings with a relative error of at most 1e-9", "why_tests_cant": "the failing suns are those at which two roundings differ in the last digit; the tests use the default albedo.", "anchors": ["smrf/envphys/solar/twostream.py:60-78", "smrf/envphys/solar/twostream.py:131-167", "smrf/envphys/solar/twostream.py:192-247"]}
{"id": "C164", "title": "The upwind horizon survives rounding", "statement": "With a rounding after every operation of slope, hord on a straight profile still chooses the highest point; short of that, the search ends, reports the slope to one of the points up to about 12 roundings of the largest possible slope, and no point is above the reported slope by more than the share h / spacing of the instrument height and 4 N such errors, N being the number of points. In double precision, with cells of 10 m or more, elevations within 9000 m and at most 1000 points, the angle from the ground is within a millionth of a degree of the largest.", "quantifier": "all straight profiles, all elevations, all instrument heights, all lengths, all roundings with a relative error of at most 0.01", "why_tests_cant": "each comparison of the loop may go either way when two slopes are close, and a wrong turn at one point is passed on to all points before it; a test follows one path.", "anchors": ["smrf/utils/wind/calc_wind.c:188-263"]}
{"id": "C165", "title": "On a search line in any direction the upwind horizon is at most 8.3 percent too low", "statement": "For every wind direction the value that calc_maxus computes for a cell is the angle to one of the cells of its search line, and no cell of that line in the grid is seen above 1.083 times that slope (the horizontal if that slope is negative) plus 1.083 times the instrument height over the cell size; with cells that are not square the factor is the square root of two. The error does not grow with the length of the line, and 1.079 is attained.", "quantifier": "all even grids, all elevations, all start cells, all end points within 16383 cells, all instrument heights, all lengths", "why_tests_cant": "the loss at one point of the line could add to the loss at the points before it; a test of a few terrains says nothing about the worst one.", "anchors": ["smrf/utils/wind/calc_wind.c:80-117", "smrf/utils/wind/calc_wind.c:144-263", "smrf/utils/wind/breshen.c:123-194"]}
{"id": "C166", "title": "Raising the terrain upwind of a cell does not lower its upwind horizon", "statement": "If the elevations along the search line are raised and the cell itself is not, the upwind horizon of the cell does not get lower. Adding a constant to all elevations changes nothing, and elevations and instrument height in another unit give the same horizon points with all slopes in that unit.", "quantifier": "all elevations before and after, all lines, all lengths", "why_tests_cant": "the search is greedy and skips points; whether one raised cell hides a higher one behind it depends on the geometry of three or more cells.", "anchors": ["smrf/utils/wind/calc_wind.c:144-263", "smrf/utils/wind/breshen.c:123-194"]}
{"id": "C167", "title": "More snowfall never makes the snow surface older or darker", "statement": "Of two runs with the same temperatures, of which the second has nowhere and at no step less precipitation, the second has nowhere more days since the last storm, and so nowhere a lower albedo.", "quantifier": "all numbers of steps, all pairs of precipitation histories, all grids, all thresholds, both storm clocks", "why_tests_cant": "it relates two runs of any length; the clock has a hidden state (the precipitation of the storm) that is carried from step to step.", "anchors": ["smrf/envphys/storms.py:5-111", "smrf/distribute/precipitation.py:327-456", "smrf/envphys/albedo.py:20-100"]}
{"id": "C168", "title": "In warmer air there is no more snow and the snow is no younger", "statement": "Of two runs with the same precipitation, of which the second has nowhere and at no step a lower temperature, the second has nowhere a larger share of snow and nowhere fewer days since the last storm. Warmer air with the same vapor pressure does not lower the precipitation temperature.", "quantifier": "all numbers of steps, all pairs of temperature histories, all precipitation, all grids, both storm clocks", "why_tests_cant": "it relates two runs of any length; the clock has a hidden state that is carried from step to step.", "anchors": ["smrf/envphys/storms.py:5-111", "smrf/distribute/precipitation.py:327-456", "smrf/distribute/vapor_pressure.py:140-164"]}
{"id": "C169", "title": "A step belongs to a storm exactly if precipitation was recent", "statement": "A step lies in a storm of tracking_by_station exactly if it or one of the steps_thresh steps before it had precipitation above the threshold at some station; so it does not depend on later steps, and more precipitation, a lower threshold or a longer dry spell never takes a step out of a storm. A step lies in a span of tracking_by_basin exactly if it is between two wet steps without steps_thresh dry steps in a row between them.", "quantifier": "all tables of any length and width with missing values, all thresholds, all dry spells, all steps", "why_tests_cant": "the storms are built by a loop with a counter and an open storm; the closed form has to hold after every number of steps.", "anchors": ["smrf/envphys/storms.py:114-260"]}
{"id": "C170", "title": "Net solar radiation responds the right way to cloud, canopy and albedo", "statement": "For the same clear-sky images, a cell with brighter snow, a taller or denser canopy or a smaller diffuse transmissivity never gets more net solar radiation, and a thinner cloud never gives less.", "quantifier": "all clear-sky radiation with a beam of at least its diffuse part, all cloud factors in [0,1], all illumination angles, canopies, albedos and clipping limits", "why_tests_cant": "two runs compared over all reals; the reversal under cloud needs particular pairs of cloud factors.", "anchors": ["smrf/envphys/solar/cloud.py::cf_cloud", "smrf/envphys/solar/vegetation.py", "smrf/distribute/solar.py:409-493"]}
{"id": "C171", "title": "Thermal radiation responds the right way to moisture, temperature and cloud", "statement": "Of two steps on the same basin, the one with nowhere drier air, or nowhere colder air, or nowhere clearer sky (all else equal) publishes nowhere less thermal radiation.", "quantifier": "all clear-sky and cloud methods, with or without terrain and canopy correction, all limits, all maps and weather, all cells", "why_tests_cant": "two runs compared over all reals through three stages; where the order is reversed depends on the combination of methods.", "anchors": ["smrf/distribute/thermal.py:254-342", "smrf/envphys/thermal/clear_sky.py", "smrf/envphys/thermal/cloud.py", "smrf/envphys/thermal/vegetation.py"]}
{"id": "C172", "title": "A higher reading at a station lowers no cell of the image", "statement": "If the readings of some stations rise and none falls, no cell of the distributed image falls, and none rises by more than the largest rise.", "quantifier": "all station networks, readings, powers, kriging weights, cells and elevations; with and without elevation trend", "why_tests_cant": "two runs compared; the effect of a reading through the trend depends on all elevations.", "anchors": ["smrf/spatial/idw.py:75-144", "smrf/spatial/dk/dk.py:86-168"]}
{"id": "C173", "title": "More shelter never means less redistributed snow", "statement": "If the shelter index and the upwind slope of every cell are at least as large as in another run and all else is the same, the wind redistribution gives no cell less precipitation than in the other run.", "quantifier": "all configurations of the limits, vegetation factors, wind directions, grids, temperatures, winds and precipitation amounts", "why_tests_cant": "two runs compared over a jump between two formulas whose limits are configured separately.", "anchors": ["smrf/envphys/precip.py:99-211", "smrf/framework/CoreConfig.ini:737-762"]}
{"id": "C174", "title": "The undercatch correction grows with wind, without a shield and in colder air", "statement": "For the same reading, the corrected precipitation is not lower in stronger wind, not lower for a gauge without shield than for one with a shield, and not lower in colder air.", "quantifier": "all readings, wind speeds, temperatures and both gauge types", "why_tests_cant": "comparison of fitted curves with real exponents over all wind speeds; they cross in a narrow range of light winds.", "anchors": ["smrf/envphys/precip.py:12-96"]}
{"id": "C175", "title": "Moister air has no lower dew point and no more snow", "statement": "If the vapor pressure of a cell is higher at the same air temperature, its dew point is no lower, up to the error of the solver, and with the dew point as precipitation temperature the share of snow is no larger.", "quantifier": "all vapor pressures in the range of the solver, air temperatures, tolerances and images", "why_tests_cant": "two runs compared through an iterative solver and a correction that applies only near saturation.", "anchors": ["smrf/distribute/vapor_pressure.py:104-164", "smrf/envphys/core/dewpt.c:26-228", "smrf/envphys/nasde_model/susong_1999.py:32-116"]}
{"id": "C176", "title": "Wet-bulb temperature rises with moisture, air temperature and pressure", "statement": "If dew point, air temperature and pressure are at least those of another state, the wet-bulb temperature is no lower; for the values returned by the iteration this holds up to the tolerance or last correction of each, and higher up the same air has no higher wet-bulb temperature.", "quantifier": "all air temperatures up to 320.2 K, dew points below them from 199 K up, pressures from 50 kPa up, tolerances from 7 mK to 1 K, elevations up to 5500 m", "why_tests_cant": "two iterations compared; the latent heat has three formulas joined at the freezing point and falls while the vapor deficit rises.", "anchors": ["smrf/envphys/core/iwbt.c:16-131", "smrf/envphys/core/envphys.h:281-288"]}
{"id": "C177", "title": "Clear-sky light at the ground is the sum of its bounces, and brighter snow never dims it", "statement": "The clear-sky light at the ground is that over black ground times the geometric series of the bounces between ground and sky, the sky sending back the fraction given by the two-stream equations of a layer lit from below; so over a brighter ground no less light arrives, the ground takes up no more of it, and brighter snow in any cells of the domain lowers no cell of the two images.", "quantifier": "all sun angles, optical depths, scattering parameters, ground reflectances from 0 to 1, domains of any size, albedo images", "why_tests_cant": "two calls over different ground compared, and an infinite series; with weak scattering the code gives less light over brighter ground without failing any of its assertions.", "anchors": ["smrf/envphys/solar/twostream.py:56-128", "smrf/envphys/solar/toporad.py:49-124"]}
{"id": "C178", "title": "New snow is no lighter in warmer air or with more precipitation", "statement": "In each of the three models of new snow, where it still snows in warmer air the density of the new snow is no lower, and with more precipitation at the same temperature it is no lower (in the Marks 2017 model higher); what happens in the other cells makes no difference.", "quantifier": "all temperatures, amounts of precipitation, domains of any size, the three models", "why_tests_cant": "two runs compared over continuous ranges; in the Marks 2017 model warmer air raises the uncompacted density but lowers the fraction of snow and the compaction, so which side wins is a question of inequalities between exponentials.", "anchors": ["smrf/envphys/snow.py:36-75", "smrf/envphys/nasde_model/susong_1999.py::run", "smrf/envphys/nasde_model/piecewise_suosong_1999.py::run", "smrf/envphys/nasde_model/marks_2017.py::run"]}
{"id": "C179", "title": "Warmer air gives no less thermal radiation with the method of Marks and Dozier", "statement": "With the method of Marks and Dozier (`marks1979`) warmer air of the same dew point gives no less thermal radiation in any cell, through clouds (any method but Kimball's), canopy and limits to the published image.", "quantifier": "all temperatures from -43 to 99 degrees, dew points, elevations from sea level, sky view factors, configurations of cloud, canopy and limits, domains of any size", "why_tests_cant": "two runs compared; the emissivity falls as the air warms, and the saturation formulas meet at the freezing point with a small step, which a test would need two temperatures within hundredths of a degree to see.", "anchors": ["smrf/envphys/core/topotherm.c", "smrf/envphys/thermal/topotherm.py:65-118", "smrf/distribute/thermal.py:276-329"]}
{"id": "C180", "title": "An error in the readings of the stations changes no cell by more than the error", "statement": "If the readings of the stations are off by at most e, the cells of the distributed image are off by at most e; with elevation trend the claim becomes: by at most e times one plus the distance of the cell from the weighted mean elevation of the stations in standard deviations of their elevations, whatever the limit on the sign of the trend, and no smaller bound holds.", "quantifier": "all sets of stations, readings, errors, powers, grids, signs of the trend, least-squares fits", "why_tests_cant": "a bound over all pairs of data sets; dropping a trend of the excluded sign looks like a jump, and that it is none needs the exact form of the cell.", "anchors": ["smrf/spatial/idw.py:75-144", "smrf/spatial/dk/dk.py:86-168"]}
{"id": "C181", "title": "A missing reading changes no cell by more than the range of the readings", "statement": "When the reading of one station goes missing, inverse distance weighting moves every cell away from that reading by exactly the share of the station in the weights times the difference between the reading and the new cell: nothing changes where the other stations already give the reading, and no cell changes by more than the range of the readings. With elevation trend the claim fails without limit.", "quantifier": "all stations, readings, powers, grids, cells, positions of the station in the list, least-squares fits, amounts", "why_tests_cant": "an exact law over all data sets; the refutation needs a height chosen for every amount.", "anchors": ["smrf/spatial/idw.py:75-144"]}
{"id": "C182", "title": "A small error in the cloud factor or the albedo changes the net solar radiation by little", "statement": "An error in the cloud factor changes the net solar radiation of a cell by at most a fixed factor (3.27) times the light the snow takes up times the error, and an error in the albedo by at most twice the light times the error, through cloud, canopy and limits.", "quantifier": "all clear-sky radiation, cloud factors, canopies, albedos, limits, sizes of the error", "why_tests_cant": "a bound on the change between two runs over continuous ranges; the place where it fails is a single cloud factor.", "anchors": ["smrf/envphys/solar/cloud.py:6-45", "smrf/distribute/solar.py:409-493", "smrf/envphys/solar/vegetation.py:4-31"]}
{"id": "C183", "title": "A small error in the precipitation temperature changes the snow by little", "statement": "In each model of new snow an error in the temperature of the precipitation changes the fraction of snow, the mass of the snow and the density of the new snow of a cell by at most a fixed amount per degree, at the temperatures at which it can snow.", "quantifier": "all temperatures up to 1 degree, amounts of precipitation, domains of any size, the three models", "why_tests_cant": "a bound over all pairs of temperatures; the density is a power with a base and an exponent that both depend on the temperature.", "anchors": ["smrf/envphys/snow.py:36-75", "smrf/envphys/nasde_model/utils.py:11-71", "smrf/envphys/nasde_model/susong_1999.py::run", "smrf/envphys/nasde_model/piecewise_suosong_1999.py::run", "smrf/envphys/nasde_model/marks_2017.py::run"]}
{"id": "C184", "title": "A small error in the cloud factor or the canopy changes the thermal radiation by little", "statement": "With every clear-sky and cloud method, an error in the cloud factor changes the published thermal radiation of a cell by at most the larger of the clear-sky radiation and its distance from the black-body radiation of the air, times the error, so by at most the black-body radiation times the error where the clear-sky radiation is physical; an error in the transmissivity of the canopy changes it by at most the distance between the radiation above the canopy and that of the canopy, times the error. The first bound is reached.", "quantifier": "all weather, maps, cloud factors, transmissivities, methods, limits, domains of any size", "why_tests_cant": "a bound over all pairs of runs of the module and all combinations of its options.", "anchors": ["smrf/distribute/thermal.py:254-342", "smrf/envphys/thermal/cloud.py:7-132", "smrf/envphys/thermal/vegetation.py:6-38"]}
{"id": "C185", "title": "A small error in a station's wind, temperature or reading changes the reading corrected for undercatch by little", "statement": "The reading corrected for undercatch changes at most in proportion to the errors in the station's wind and temperature, and an error in the reading itself grows at most five times. For the wind this holds with an explicit rate for each gauge, for rain and for snow, as long as the phase is the same; for the temperature it fails at -0.5 degrees, where the corrected reading of an unshielded gauge in strong wind rises by one and a half times the reading however small the difference in temperature.", "quantifier": "all gauges, temperatures, winds, readings and errors", "why_tests_cant": "a bound over all pairs of inputs, with real powers and exponentials; and the failure is shown for every size of the error.", "anchors": ["smrf/envphys/precip.py:12-96"]}
{"id": "C186", "title": "A small error in the age of the snow or the sun's angle changes the albedo by little", "statement": "The visible and the infrared albedo of a cell change at most in proportion to the errors in the age of the snow and in the cosine of the sun's angle. For the age this holds with an explicit rate per day that depends only on the grain sizes and the dirt, also for the published images with the dated decay, and with litter after adding the rate of decay of the cell's class; for the angle it holds while the sun is above the horizon of the cell in both runs or in neither. It fails at the horizon: a sun above it by however little makes the snow brighter in the infrared by at least a twentieth.", "quantifier": "all accepted grain sizes and dirt, ages, angles, decay methods, limits, domains of any size", "why_tests_cant": "a bound over all pairs of inputs; and the failure is shown for every size of the error.", "anchors": ["smrf/envphys/albedo.py:12-256", "smrf/distribute/albedo.py:104-159"]}
{"id": "C187", "title": "A small error in a wind reading or in the upwind slope changes the wind of a cell by little", "statement": "The wind of a cell changes at most in proportion to an error in the station's reading, in the distributed wind on flat terrain, and in the upwind slope. For the reading and the flat wind this holds at every slope, with factors of 4.22 (station), 4.56 (cell, times the reduction factor if it is above 1) and 20 (both). For the slope it holds within one class of the relation; it fails at its boundaries, where the wind drops to zero, and on level ground when the reduction factor is not 1: with 0.7 a cell exposed by however little gets at least a quarter less wind than level ground.", "quantifier": "all readings, slopes, reduction factors and errors", "why_tests_cant": "a bound over all pairs of real inputs with the fitted cubics; and the failures are shown for every size of the error.", "anchors": ["smrf/distribute/wind/winstral.py:196-363"]}
{"id": "C188", "title": "A small error in precipitation, wind, temperature or shelter changes the redistributed snow by little", "statement": "The snow that the redistribution by wind gives a cell changes at most in proportion to errors in the precipitation, the wind, the upwind slope, the temperature and the shelter of the cell. For the precipitation this holds with the largest factor of the configuration, for the slope with 0.73 a degree times the factor of the vegetation, for the wind with a factor that depends only on the error and the largest wind. It fails for the temperature at 0.5 degrees and for the shelter at its threshold, where the snow of a cell in strong wind is multiplied by the largest drift factor (3.5 by default) however small the difference.", "quantifier": "all configurations, vegetation factors, cells and errors", "why_tests_cant": "a bound over all pairs of inputs with exponentials and limits; and the failures are shown for every size of the error.", "anchors": ["smrf/envphys/precip.py:99-211"]}
{"id": "C189", "title": "A small error in the vapor pressure changes the dew point by little", "statement": "For all vapor pressures from 20 Pa (the default minimum) to one and a half atmospheres the root finder returns dew points that differ by at most 2.5 degrees per Pa of difference in the pressure, plus four times its tolerance; for pressures up to 600 Pa by at most the relative difference times 17 degrees, plus four times the tolerance. The limit by the air temperature adds at most 0.2 degrees.", "quantifier": "all pairs of vapor pressures in the range, tolerances from 0.0001 to 10 (0.1) degrees", "why_tests_cant": "a bound over all pairs of runs of an iterative root finder.", "anchors": ["smrf/envphys/core/dewpt.c:1-229", "smrf/envphys/core/topotherm.c", "smrf/distribute/vapor_pressure.py:136-142"]}
{"id": "C190", "title": "An error in the vapor pressure readings reaches the dew point bounded", "statement": "For every set of stations and every cell that is not at a station: if each vapor pressure reading is off by at most d Pa, then the dew point published after inverse distance weighting, the limits (at least the default 20 Pa), the root finder and the limit by the air temperature is off by at most 2.5 degrees per Pa, plus four times the tolerance and 0.2 degrees. With the elevation trend d is first multiplied by one plus the distance of the cell from the weighted mean elevation of the stations in standard deviations.", "quantifier": "all station sets, grids, readings, errors, limits from 20 Pa to one and a half atmospheres, tolerances from 0.0001 to 10 degrees, air temperatures", "why_tests_cant": "a bound over all pairs of runs of four composed steps.", "anchors": ["smrf/distribute/vapor_pressure.py:106-142", "smrf/distribute/image_data.py", "smrf/spatial/idw.py", "smrf/envphys/core/dewpt.c:1-229"]}
{"id": "C191", "title": "A small error in the sky view factor changes the thermal radiation by little", "statement": "With the methods of Dilley, Prata and Angstrom an error in the sky view factor changes the clear-sky radiation of a cell by exactly the error times the distance between the radiation of the open sky and the radiation the code gives the terrain; with the method of Marks by at most the black-body radiation of the air times the error, at cells not below the sea. Clouds, canopy and limits raise the change by at most 48.5 percent. Without the terrain correction the map is not read.", "quantifier": "all weather, maps, view factors, sizes of the error, methods, limits, cloud factors and canopy transmissivities from 0 to 1", "why_tests_cant": "a bound on the difference of two runs over continuous ranges.", "anchors": ["smrf/distribute/thermal.py:254-342", "smrf/envphys/core/topotherm.c", "smrf/envphys/thermal/cloud.py:7-132", "smrf/envphys/thermal/vegetation.py:6-38"]}
{"id": "C192", "title": "A small error in the vapor pressure changes the thermal radiation by little", "statement": "With the methods of Dilley, Prata and Angstrom an error in the vapor pressure changes the published thermal radiation of a cell by at most a fixed rate of the method and the air temperature (91/T for Dilley, 4.65/T and 0.000034 of the black-body radiation for Prata and Angstrom, T in kelvin) per Pa, raised by clouds, canopy and limits by at most 48.5 percent.", "quantifier": "all weather up to 98 degrees, maps, vapor pressures, sizes of the error, methods, limits", "why_tests_cant": "a bound on the difference of two runs; where it fails (dry air with the method of Dilley) the rate grows without limit.", "anchors": ["smrf/distribute/thermal.py:254-342", "smrf/envphys/thermal/clear_sky.py:30-130", "smrf/envphys/thermal/cloud.py:7-132"]}
{"id": "C193", "title": "A small error in the dew point changes the thermal radiation by little", "statement": "With the method of Marks an error in the dew point changes the clear-sky thermal radiation of a cell not below the sea by at most 4/230 of the black-body radiation of the air per degree; when the freezing point is between the two dew points the error counts as half a degree at least, because the saturation formula jumps there. Clouds, canopy and limits raise the change by at most 48.5 percent. The other clear-sky methods do not read the dew point.", "quantifier": "all air temperatures up to 99.99 degrees, dew points from -43.16 degrees to the air temperature, maps, clouds, limits", "why_tests_cant": "a bound on the difference of two runs over continuous ranges of a formula with a seventh root and a jump.", "anchors": ["smrf/envphys/core/topotherm.c", "smrf/distribute/thermal.py:254-342"]}
{"id": "C194", "title": "A small error in the air temperature changes the thermal radiation by little", "statement": "With the clear-sky methods of Dilley, Prata and Angstrom and the cloud methods of Garen, Unsworth and Crawford (or none) an error in the air temperature changes the clear-sky thermal radiation of a cell by at most 8.4 watts per square meter and degree and the published one, after terrain, clouds, canopy and limits, by at most 12.5.", "quantifier": "all air temperatures from -63 to 59 degrees, vapor pressures up to 5000 Pa, maps, cloud factors, limits, sizes of the error", "why_tests_cant": "a bound on the difference of two runs over continuous ranges.", "anchors": ["smrf/distribute/thermal.py:254-342", "smrf/envphys/thermal/clear_sky.py:30-130", "smrf/envphys/thermal/cloud.py:7-132", "smrf/envphys/thermal/vegetation.py:6-38"]}
{"id": "C195", "title": "Errors in the weather add up in the thermal radiation", "statement": "With the clear-sky methods of Dilley, Prata and Angstrom and the cloud methods of Garen, Unsworth and Crawford (or none), for any two weathers over the same maps the published thermal radiation of a cell differs by at most 12.5 watts per degree of air temperature, plus the rate of C192 per Pa of vapor pressure, plus the larger of the clear-sky radiation and its distance from the black body times the difference of the cloud factors. The dew point does not matter.", "quantifier": "all pairs of weathers from -63 to 59 degrees and from 20 to 5000 Pa, maps, cloud factors, limits", "why_tests_cant": "a bound on all pairs of runs over continuous ranges of three inputs at once.", "anchors": ["smrf/distribute/thermal.py:254-342", "smrf/envphys/thermal/clear_sky.py:30-130", "smrf/envphys/thermal/cloud.py:7-132"]}
