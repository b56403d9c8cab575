# Design of the formal model of SMRF

Source: `/repo` (USDA-ARS-NWRC/smrf at the pinned commit), read as text only.
Model and proofs: Lean 4.33.0 + Mathlib, Lake project in `/verif/lean`.

## Method

* Each modelled Python/C function becomes a total Lean function (or a
  `step` relation for threads) that follows the source branch by branch.
  Every definition carries a comment with file and lines.
* Exceptions, `sys.exit`, "variable unbound" and "blocked" are explicit values
  (`Except`, `Option`, or an outcome inductive), never a default value.
* Arrays are lists or functions of an index; numpy in-place mutation is modelled
  explicitly where it can be observed (aliasing properties C11, C32).
* Model files `Verif/X.lean` hold definitions, `Verif/XLemmas.lean` (where
  needed) helper lemmas, `Verif/XProps.lean` only the property theorems, a small
  independent specification for each and `example`s which instantiate the
  hypotheses on concrete data.
* Where the code violates the property, the full statement is kept as a
  definition or in the docstring, its negation is proved with a concrete witness
  (`..._fails`), and the strongest true variant is proved with suffix `_partial`.

## Numbers

* Purely algebraic code is modelled over an arbitrary linearly ordered field `K`
  (`Field K`, `LinearOrder K`, `IsStrictOrderedRing K`), so theorems hold for ℚ and ℝ;
  examples are run at ℚ.
* Code using exp, sqrt, non-integer powers, sin/cos/atan2 is modelled over ℝ.
* Decimal constants in the source are taken as the exact rationals written there.
* IEEE rounding is modelled only where a claim is about it: C13 takes an arbitrary
  rounding function for the float32 time axis, and the modules named *Float (C126,
  C144, C149, C151-C156, C159, C161-C164) round to a number of binary digits after
  every operation. Overflow and underflow are not modelled anywhere.
* NaN is modelled as `none : Option K` where the code branches on it.

## Trusted base

* Lean 4 kernel; axioms used by the theorems are at most `propext`,
  `Classical.choice`, `Quot.sound` (checked with `#print axioms`; see the table in
  "Axioms" at the end of this file).
* The faithfulness of the hand translation from Python/C to Lean (the line
  citations exist so that this can be reviewed).
* Python/numpy/pandas/netCDF4/scipy/topocalc/pykrige primitives behave as
  documented: dict update, `queue.Queue` locking, `np.where`, boolean masks,
  `DataFrame.loc`, `diff`, `clip`, `polyfit` (least squares), `Delaunay`,
  `Queue` condition variables (a waiting thread whose condition becomes true is
  eventually woken; each queue operation is atomic because it holds the mutex).
* Not modelled: file formats and I/O errors, config parsing by inicheck, plotting,
  WindNinja itself, GRIB decoding, Delaunay triangulation, numerical error of
  quadrature in `irradiance.py`, pykrige's numerics, and floating-point rounding
  outside the modules named above. Log messages and the run script are modelled only
  as far as C143 and C160 say; the Cython wrappers and OpenMP loops as far as C111,
  C118-C120 say.

## Properties

* **C01 Date queue behaves like a map from date to last value.** `Queue.lean`: state = association list + capacity + timeout (`DateQueue`), `put/get/clean` as in queue.py 48-194. Proof: refinement — induction over a history of operations, lookup equals the fold of the history into a partial map (specification: last put after last clean).
* **C02 A bounded date queue never holds more than its capacity.** Invariant `size ≤ maxsize` by induction over histories; capacity 0 never blocks.
* **C03 Reading does not consume, cleaning removes only its own date.** Frame lemmas on association-list lookup for get/put/clean, for all keys.
* **C04 A get or put that cannot be served is signalled, never silent.** Outcome type `value/none/blocked/exit`. Blocking calls: proved. Non-blocking calls: negation with witness (`get(block=False)` returns None on a missing date of a non-empty queue; `put(block=False)` on a full queue drops silently). `_partial`.
* **C05 A timeout given to one call bounds that call and no other.** Timeout is part of the state. Negations: `get(timeout=)` overwrites the queue's timeout; `put(timeout=)` is ignored. Positive part: calls without timeout leave it unchanged and are bounded by the queue's timeout. `_partial`.
* **C06 Threaded run is deterministic.** `Pipeline.lean`: threads are programs `get/put/ret` (free-monad style, data-dependent reads allowed), global state = queues with finite capacity, cleaner thread, per-thread position; `Step` relation = any thread's next action. Proof: invariant by induction on executions: every value ever published for (q,t) equals the denotational value defined by recursion on time and rank. Hence any two executions agree, for all schedules/capacities.
* **C07 The cleaner never removes a value somebody still needs.** Same model; ghost state records cleaned dates. Invariant: if t cleaned from any queue then every thread has position after its last read of t.
* **C08 A well-formed threaded run cannot deadlock and always finishes.** Progress theorem on invariant states (rank argument) and termination measure (strictly decreasing count of remaining actions).
* **C09 Every accepted configuration runs to completion when threaded.** `Network.lean`: the concrete SMRF thread network parametrised by configuration flags; well-formedness of the network proved for supported flags, so C06–C08 apply; negations (stuck cleaner) for frequency > 1, solar correction flags off, winstral rescaling without winstral wind. `_partial`.
* **C10 Threaded and serial runs hand the same inputs to every module.** Model of arguments passed by `distribute_single_timestep` and the threads; equality for all modules except precipitation under winstral (flatwind vs wind_speed) and last_storm_day; negations. `_partial`.
* **C11 A published value does not change after publication.** Heap model: storm_days array reference shared between producer and queue. Negation: a schedule with capacity ≥ 2 where a reader at t sees t+1's value. Positive: with capacity 1, or in any case if every reader reads before the producer's next mutation. `_partial`.
* **C12 Outputs are written at every frequency-th step and at the last step.** Model of the loop test. Exact characterisation; negation for last step. `_partial`.
* **C13 NetCDF output keeps one record per time, the latest.** Model of `output` as upsert on a list of (time, record) with an abstract storage rounding of time; injective on the times used ⇒ unique times/idempotent/crash-restart; negation when rounding changes the time. `_partial`.
* **C14 Missing data becomes zeros, masked-out cells never leak.** Grid as list of rows; None → zeros, mask multiplication.
* **C15 The files created are exactly the requested known variables.** Fold over the requested list into an association list.
* **C16 Clamping is a projection that only touches out-of-range cells.** Cellwise `Option K` clamp.
* **C17 Water day and water year are consistent with the calendar.** Calendar model (proleptic Gregorian day numbers).
* **C18 Day-of-year arithmetic is exact.** `yearday`, `numdays`, `leapyear` on naturals; bijection by omega over month cases.
* **C19 The list of simulation dates is complete, ordered and regular.** Model of `date_range` as iteration start + k·step ≤ end.
* **C20 Colocated stations are found exactly.** Model of the pairwise position comparison.
* **C21 Linear grid interpolation is exact and bounded.** Barycentric weights over K for a d-simplex: interp = Σ wᵢ·vᵢ; affine exactness and convexity.
* **C22 A station list in the configuration restricts the stations used.** Model of getStations with `list.sort()` returning None: negation; partial for the unset case.
* **C23 Station-based storm segmentation is sound and complete.** State machine fold as in storms.py 114-210; specification through intervals; induction over the record with an invariant.
* **C24 Separate storms are separated by the configured dry spell.** Same fold, invariant on the dry counter.
* **C25 Clipping to storms conserves each station's total.** Per-station sums over K; partial because a station whose precipitation is entirely outside storms loses its mass (negation).
* **C26 Basin-based storm segmentation is sound.** State machine step of tracking_by_basin; induction over runs.
* **C27 Days since last storm follow the clock.** Cellwise step; negations for accumulation (assigns instead of adds) and for time_step (adds 1). Partial: reset-or-increment-by-1.
* **C28 Pixel storm clock equals time since the last storm at that pixel.** Cellwise step; induction over list of steps: counter = elapsed since last reset.
* **C29 Susong 1999 phase/density classification is total and monotone.** Table lookup over K; totality, disjointness, monotonicity.
* **C30 Percent snow is a continuous non-increasing fraction of temperature.** Piecewise linear function over K.
* **C31 Piecewise density is bounded and well defined.** ℝ (real power); bounds & monotone; negation: without the check the temperature variable is unbound.
* **C32 Marks 2017 density: compaction only densifies, quantities are distinct.** ℝ; density relation; array heap model for the aliasing negation. `_partial`.
* **C33 Undercatch correction never reduces a gauge reading.** ℝ (exp, rpow); positivity, antitone; negation of 'never reduces' at low wind; partial above the wind speed where the ratio is ≤ 1.
* **C34 Wind redistribution of snow is bounded and local.** Cell function over ℝ; bounds; negation for the published cubic constant. `_partial`.
* **C35 Precipitation state is refreshed at every step.** Dispatch model; negation for station data without undercatch correction; partial for all other configurations.
* **C36 Snow albedo stays physical and declines with age.** ℝ (sqrt, exp): growth monotone ⇒ albedo antitone; clamp.
* **C37 Out-of-range albedo parameters are rejected.** Decision table; negation for the dirt test; partial for the other two.
* **C38 Date-method albedo decay is monotone and bounded.** ℝ; piecewise.
* **C39 Litter albedo is between snow and litter albedo.** ℝ; convex combination, antitone/monotone in age.
* **C40 Dew point is strictly below air temperature.** Cellwise over K.
* **C41 Saturation vapor pressure over ice is positive and strictly increasing.** ℝ (exp/log): positivity and strict monotonicity via derivative or product decomposition on the ice range.
* **C42 Relative humidity conversion treats every station alike.** List model; negation for mixed lists; partial for homogeneous lists.
* **C43 Dew-point solver brackets and preserves the root.** Bracketing loops as iteration (ℝ, abstract monotone function), Brent step as state machine with bracket invariant for every abstract continuous f. Worst-case number of rounds (DewpointBrent): a run of p interpolation steps in a row moves an end by at least 2^(p/2) tolerances, so p is at most twice the binary logarithm of the bracket; strong induction over rounds gives the bound log² + 2 log, which is below `maxfun`. VaporSlope bounds the slope of the saturation pressure from below, which turns an accepted pressure into an accepted temperature from 20 Pa up.
* **C44 Wet-bulb iteration returns only converged values.** Newton loop with fuel as in the C code; exit conditions. That the loop ends within its ten rounds (`WetBulbLoop`): between the freezing point and 320.2 K the saturation pressure falls at least like `exp(-B/T)` (`VaporDecay`), so the correction relative to the remaining distance shrinks by a factor that is bounded round by round (`WetBulbConv`); the chain of bounds is checked separately for hot air, cold air and ice, allowing one passage from water to ice. `_partial`: dew points from 199 K, air up to 320.2 K, 50 kPa and more, tolerances from 7 mK to 1 K.
* **C45 Net solar radiation counts each component once.** K; algebra; negation: returned beam contains diffuse, net counts it twice; non-negativity proved.
* **C46 No sun, no solar radiation.** Decision logic of the drivers for all step sequences.
* **C47 Cloud correction only redistributes and reduces radiation.** K; bounds, with the cf>0.99 branch.
* **C48 Canopy attenuation is a contraction.** ℝ exp.
* **C49 Two-stream coefficients satisfy the theory's constraints.** ℝ; algebra on Meador–Weaver polynomials.
* **C50 Longwave canopy and terrain corrections are weighted means.** K.
* **C51 Clouds never reduce longwave and clear sky is a fixed point.** K; per-method; negation for Kimball (ignores cloud factor); partial.
* **C52 Terrain longwave uses absolute temperature.** K; negation (Celsius to the fourth power is not monotone).
* **C53 Inverse-distance weighting is a weighted mean of the stations.** K with abstract positive weights; negation at zero distance; partial.
* **C54 Detrending followed by retrending reproduces elevation-linear data.** K; normal equations for least squares (independent specification: minimiser), exactness on affine data.
* **C55 Cached kriging weights are always the right ones.** Cache state machine; induction over sequences of NaN patterns.
* **C56 Kriging weights returned are non-negative and sum to one.** Loop with abstract solver; termination by number of active stations; negation for non-positive elevations (negative weight kept). `_partial`.
* **C57 The linear solver solves the system it is given.** Forward/back substitution over K on lists/functions; negation for `sum > 0` skip; partial for non-negative intermediate sums.
* **C58 Distributed wind direction is an azimuth consistent with its components.** ℝ; complex argument.
* **C59 Wind direction binning picks the nearest sector.** K with ceil (FloorRing).
* **C60 The terrain wind adjustment is defined for every exposure.** K; negation at the class boundaries; partial elsewhere.
* **C61 Station upwind-slope enhancement uses the station's own data.** Loop with stale variable as explicit `Option`; negation; partial.
* **C62 The search line visits connected cells from the point to the far end.** ℤ; Bresenham invariant by induction on steps, all octants.
* **C63 The python line walker returns the line.** ℤ; negation with witness; partial for the octants that work.
* **C64 The upwind horizon is the true maximum slope.** Profile as function ℕ→K; Dozier's algorithm invariant; negation for positive instrument height; partial for zero height.
* **C65 Directional window averaging is rotation-invariant.** Index model; negation at 360; partial.
* **C66 WindNinja height conversion is positive and monotone.** ℝ log.
* **C67 Cosine of the solar zenith is a cosine.** ℝ; Cauchy–Schwarz for the rotation formula.
* **C68 Invalid positions are rejected.** ℝ; negation (2π bound).
* **C69 The Kepler iteration converges.** ℝ; contraction with eccentricity < 1.
* **C70 Topographic images come from their own file variable.** Loop with stale variable; negation; partial when all variables exist.
* **C71 Station pixel indices are nearest pixels.** argmin over lists.
* **C72 WRF accumulated precipitation is converted without loss.** List telescoping over K.
* **C73 Gridded wind direction means the same as in the distribution step.** ℝ; negation (swapped axes); partial: speed preserved.
* **C74 Derived cloud factor is a fraction and remembers daylight.** History fold over Option K.
* **C75 HRU output rows correspond to time steps.** Index state machine; negation with two variables; partial with one.
* **C76 CSV station filtering keeps exactly the requested stations and period.** List filter model; the names of the configuration are converted to capitals by `CheckStation`, so the claim is proved for runs from a configuration.
* **C77 Two-stream fluxes are physical.** ℝ; closed form of the two-stream solution; determinants and signs for non-resonant sun angles; negations at resonance and weak scattering. `_partial`. With asymmetry up to 1/3 and omega from 3/4 (defaults) nothing is assumed of the series or the sun angle (`C77_default`).
* **C78 Clear-sky longwave is between zero and black-body emission.** ℝ; per method; negation for Dilley below −90 °C. `_partial`.
* **C79 The C and Python versions of topotherm agree.** ℝ; both versions as functions into `Option`/outcome; equality above 0 K; negation at a dew point of 0 K.
* **C80 Every combination of thermal options runs.** Decision table of the options with unbound variables as errors; negation for marks1979 without terrain correction.
* **C81 The configured snow model is the one used.** Dispatch table.
* **C82 More shelter never means more wind.** K; monotone cubic pieces; negation across 21.3 degrees.
* **C83 Adjusting the flattened station wind gives the measured wind.** K; composition of the two adjustments; negation beyond 30 degrees.
* **C84 Vegetation changes the upwind slope once.** Fold over the vegetation classes.
* **C85 The upwind profile handed to the horizon search is the in-grid part of the line, without gaps.** C arrays as functions with uninitialised memory as a parameter; induction over the line.
* **C86 A cell with no upwind cell in the grid gets maxus 0.** ℝ with an explicit −inf/NaN case; negation for height 0.
* **C87 The upwind search goes in the direction the wind comes from.** ℝ; rounding to the grid; negation for rows going north.
* **C88 Filling the edges of a WindNinja grid is complete and leaves the data alone.** Grid of `Option K`; extrapolation along rows, then columns; negation for NaN on the right edge.
* **C89 Wind speed handed to other threads keeps its limits.** Heap model of the array shared between the wind model and the wind module.
* **C90 The sun position is defined for every date and place.** ℝ; ranges of all intermediate quantities of the ephemeris; Kepler loop with fuel.
* **C91 The true anomaly is the direction on the orbit.** ℝ; half-angle identity for the ellipse.
* **C92 Right ascension and declination are the ecliptic direction.** ℝ; spherical rotation; separate theorem for the autumn equinox.
* **C93 The day number counts days.** Integer day count against the calendar model; negation from 2101.
* **C94 The ephemeris is the direction of the sun.** ℝ; composition of C69, C90–C93 to the direction of the sun. `_partial`.
* **C95 Cell size and centre of the basin.** K; telescoping sum of the axis, mean over the cells of the mask.
* **C96 HRU values are means over the unit.** K with NaN as `none`; mean over the cells of the unit.
* **C97 Every module finds the values of its stations.** Fold over the variables; row lookup by name; negation for wind models of their own class.
* **C98 Detrended gridded interpolation restores the trend.** K; interpolation as weights per pixel (scipy's triangulation is a parameter); the trend is the normal-equation fit of C54. `_partial` for local trends.
* **C99 The configured detrending is what every method does.** Decision table of `_distribute` over the models of idw, dk, grid and kriging. `_partial`.
* **C100 Optical depth follows the air pressure.** ℝ; hydrostatic pressure formula of C49's model.
* **C101 A cell is in the shade exactly when its horizon is above the sun.** ℝ; both readings of what `topocalc` (not in the repository) returns. `_partial`.
* **C102 Solar irradiance follows the inverse square of the distance.** ℝ; day of the year from the calendar model of C17–C18.
* **C103 Every grid cell in the box becomes one station of its own.** Mask and `argwhere` as two separate row-major scans; injectivity of the decimal names.
* **C104 Input times are the times in the file.** K with floor; truncation as in `astype(int)`. `_partial`.
* **C105 Threaded and serial HRRR runs use the same cloud factors.** Fold of the memory of C74 over the steps. `_partial`.
* **C106 Measured wind is kept at the pixels of the stations.** Field as a function on pixels; numpy assignment with a list of values, including broadcasting of one value. `_partial`.
* **C107 Missing cells of the simulated wind are interpolated between their neighbours.** `nan_helper` returns row and column indices and the code uses the first, so `np.interp` runs over row numbers with repeated abscissae, modelled as numpy's search does. `_partial`.
* **C108 Vegetation tables give every class its configured value.** Keys as lists of characters; `str.split`, dictionaries in insertion order, `int()` of a string. `_partial`.
* **C109 A restarted run continues the days since the last storm.** Fold of the storm-day model of C27–C28 with the records of C12–C13. `_partial`.
* **C110 The storm table and the steps of a run agree.** The tracking and correction of C23–C25, the search and the step of C35 composed over all rows; induction over the steps. `_partial` for the total.
* **C111 The parallel loops of the C code have no races.** Loops as lists of statements that name the variables they read; a state has a shared memory, a memory for each thread and the array that is written; any thread may take the next step. Invariant by induction over runs, then five instances, one for each pragma; a loop with a shared variable is shown to be wrong. This discharges the assumption, made in C43–C44, C56, C64 and C79, that the value of a cell does not depend on other threads.
* **C112 Wind directions from WindNinja lie between those of the file.** Interpolation of sine and cosine (as in C88 for the speed), filling, arctangent; convexity of a cone of directions in terms of cross products. `_partial`: only inside the grid of the file.
* **C113 Each value of a WindNinja file is used at the centre of its cell.** Head as lines of words and a dictionary, coordinates, flattened mesh and flattened values; places compared by induction over rows. `_partial`: heads of six lines with the corner.
* **C114 Each time step reads its own WindNinja file.** Names of files from the two clocks; equal names are equal digits. `_partial`: one offset.
* **C115 The bounding box of gridded data contains the domain.** The projection is a parameter with monotonicity only. `_partial`: limited variation along rows and columns.
* **C116 A run can be repeated from the backup of its input.** Frames with the name of the index and whether times have a zone; files with the word above the first column and whether times have offsets; loading as in C76, shown idempotent. `_partial`: the tables alone.
* **C117 The configuration of the run script is the only one.** Listing of a directory and test for files as parameters. `_partial` for the message.
* **C118 The kriging code in C is memory safe and computes the weights of the model.** A small memory model (CMem): arrays have a size, are allocated or freed, and know which elements are written; each access is checked and ends in a fault otherwise, as do `int` overflow and a loop that does not end. `krige.c`, `lusolv.c` and `array.c` are transcribed statement by statement over an abstract type of numbers, of which only eight facts about zero and one are used. Invariants for every loop (`Safe`). With exact arithmetic a simulation shows that the program agrees with the models of C56 and C57, so these hold for the array. `_partial`: sizes that fit in an `int`.
* **C119 The upwind-slope code in C is memory safe and computes the slopes of the model.** `calc_maxus`, `find_line` and `hord` statement by statement with the checked memory of C118, over arbitrary slopes and an arbitrary comparison. The key is an invariant of the line walker that needs no bound on the coordinates: each coordinate only moves one way, so the line never comes back into the grid, even where a `short` wraps around (BresAny). Loops by invariants (`Done`: returns, and the result has a property). Exact arithmetic: simulation of the models of C64 and C85.
* **C120 The Cython wrappers treat every cell once, inside the arrays.** Arrays with shape, type, order and checked memory; the loop over the cells by induction; the calculation for a cell is a parameter. `_partial`: fewer than 2^31 cells.
* **C121 Every item of the configuration that a run reads is there.** A section is a partial map from items to values; defaults and recipes are functions on sections, in the order of recipes.ini; each class is the list of the items that it reads, with the conditions. Two unknown rules of the package inicheck are parameters and the theorems hold for both values. Per item: which recipes can touch it (`touched`, `any_other`), and per method of distribution the section after the last recipes (`any_idw` ...). `_partial`: precipitation, wind and albedo outside the failing cases.
* **C122 The topographic break of a cell is the slope near the cell less the slope beyond.** `tbreakCell` composes the models of the search direction (C65), of the line walker and of the slopes (C64). A ray is the cell plus multiples of a step with entries -1, 0, 1; the walker returns exactly the ray (`span_ray`), its points are evenly spaced, so the bound of C64 applies for every height (`C64_ray_partial`). The break is then the difference of two such values. `_partial`: the claim where the difference is negative; zero otherwise.
* **C123 A run in a local time zone has one record per step and the dates of the clock.** A zone is a first offset and a list of changes; the clock is the instant plus the offset. `localize` lists all instants with a given clock (proved complete and without duplicates) and raises unless there is exactly one. Steps come from `dateRange` (C19), the file from `Output.writes` (C13), the decay from `decayAlbPower` (C38), the water day from `waterDay` (C17). `_partial`: where the clock is not put back, where the offset is the first one, where the abbreviation is a zone with the same offset.
* **C124 Every band of the solar spectrum has a positive irradiance and bands add up.** The table is in the model with all its digits; derivatives are those of Akima over the rationals, the spectrum is a real function, `solint` its integral. Generic lemmas for piecewise cubics (continuity, values at the points, integral as a sum of rational areas, positivity from the coefficients of Bernstein) reduce the claims to inequalities between rationals of the table, which the kernel evaluates; the theorems are for all wavelengths and dates. `_partial`: positivity up to 60 micrometres.
* **C125 A whole run keeps every image in its limits and never aborts.** `Run.step` composes the models of the stages (limits, dew point, wet bulb, precipitation with its snow images and redistribution, albedo, solar, thermal) in the order of `distribute_single_timestep`; `Run.run` is the serial loop, with state passed from step to step. Interpolation is a parameter: the images before limiting are arbitrary. The specification (`RunSpec`) states the ranges with no reference to the stages. Proved by induction on the sequence of inputs with the invariant that the precipitation images carried over are physical. `_partial` for the absence of aborts: the wet-bulb method only under the conditions `WetReady` (which the default limits and a tolerance of 0.01 meet up to 5500 m), sun angles at which the two-stream model is defined. Simplified: an unknown snow model is reported whether or not it is used in the step.
* **C126 Single-precision times keep the steps of a run apart and a restart finds its record.** Rounding to a binary format (nearest, ties to even, `p` digits, no subnormal numbers or overflow) is defined over the rationals and its error, exactness and order are proved for all numbers; the writer is modelled with the comparison of times in single (numpy 1) and in double precision (numpy 2); the reader of a restart decodes to the nearest microsecond. That a time is exact only for whole quarters of an hour is proved from the coprimality of 15 and 2. `_partial`: restart at whole quarters of an hour. Assumptions on date2num and num2date are in the header of Stamp.lean.
* **C127 The images of a time step fit together and follow from those of the step before.** `Linked` states each relation between published images of a step, `Chain` links the steps; proved for `Run.run` by induction. The dew point is related to the saturation curve through C43, the storm clock of a dry run through C35, the wet-bulb temperature to the psychrometric equation through C44. `_partial`: vapor pressure from 20 Pa up; wet bulb as in C44.
* **C128 Runs into the same output directory complete each other's files.** `Sessions.history` folds runs over a file that is created by the first and opened by the others; records are written by the single-precision writer of C126. Specified by the list of all writes (`written`, `instants`) without reference to the file; proved by induction over runs and steps. `_partial`: zones of one offset.
* **C129 The files of a run hold the images of its output steps.** `RunFiles.loop` interleaves `Run.step` with the output of the requested variables through the writer of C126. `expected` lists the records of a file from the published images; equality is proved by induction over the steps, for runs that end and for runs that abort.
* **C130 Each time step uses the input of its own date, serial or threaded.** The slice to the period of the run, the lookup by date and the data queue (the queue of C01-C05, filled by its own `put`) are modelled on tables of any length; `Only` and `Absent` state what the step must get from the rows alone. `_partial`: increasing dates, and an end of the run only with a time-out.
* **C131 The library of upwind slopes serves every wind direction.** The loop over the directions that writes one image at a time (possibly stopped after any number), the reading of the library and the rounding of the azimuth to an index are composed; the slopes themselves are a function of the direction (C60-C64 say what they are). `Nearest` states over the reals, going around the circle, what direction must serve an azimuth. The file names are lists of characters.
* **C132 A threaded run publishes the images and leaves the files of the serial run.** `Threaded.comp` puts the computations of the whole step (`Run`, C125) into the threads of the network (`Network`, C09-C10) and the writing of the files (`RunFiles`, C129) into the output thread. The step of the network's serial driver is proved to be the step of the run (`step_serial`), the state of a finished thread to be that of the dates run one after the other (`finished_state`). `content` states what a reader makes of a value in a queue, independently of how the threads put it there.
* **C133 Enhancement of the stations.** The section is a list of items with values (number, text with the number `float` makes of it, none, list), the metadata a list of names with an optional column; the loop keeps what it wrote before an exception. `Asked` states over the items of the section which number a station must get, `Means` which number a value stands for.
* **C134 Loading of a WRF file.** K with the conversions (`satvp`, wind speed and direction) as parameters, given by `phys` over the reals. The coordinates have two or three dimensions; the mask, the names and the indices of the tables follow numpy for both. `Holds` states over the file what the columns of a station must be, `Between` which records, `Faithful` which stations.
* **C135 Output as offered.** The list of offered names is that of CoreConfig.ini, the catalogue that of the classes; the writer is chosen as in `initializeOutput`, the steps as in `output`. `Meant` states which variables a request means. inicheck is not modelled: it would refuse the file type HRU, which the framework still branches on, and names that are not offered.
* **C136 Accidents in threads.** The state of C06-C08 with a fate per thread and for the cleaner: an exception may strike a thread between any two queue operations at the dates `R` allows, a waiting call of a queue with a time-out may end its thread (the outcome `exited` of the queue model of C05). Time is not modelled: a time-out may fire whenever a call waits. A run with accidents is, underneath, a run without them in which some threads have stopped, so the invariants of C06-C08 carry over; the length of runs is bounded by theirs plus the number of threads. `DiedBefore` states the accident by what is published.
* **C137 No dependence on later input.** About existing models only: `Run.run` and `Run.runFiles` (C125, C129), networks of threads (C06), `cloudSteps` (C105), `wrfPrecip` (C72), `hrrrCloud` (C74), storm tracking and correction (C23-C25, C110). The loops thread a state through a list, so prefixes map to prefixes by induction; two threaded runs are compared through the serial loop. For storms the loop is split at the end of the shorter record: `storms_append` says how the list of storms goes on.
* **C138 Part of the domain.** `Crop.lean` defines the restriction of configuration, input, state and images of `Run` (C125) along any map of cells `f : κ → ι`; it models no code of its own. Each module of a step is shown to commute with restriction (`CropLemmas`), under the condition it needs; the run follows by induction. Interpolation is an argument of `Run`: that the interpolated values of the part are those of the domain is assumed (true of IDW, gridded and kriged fields cell by cell; the station data are the same).
* **C139 Order of the stations.** Uses the models `Idw`, `Krige` and `WindFill` as they are. IDW: sums and minimum of a list do not depend on its order. Kriging: the elimination (`Elim`, C56) of the renumbered stations is the renumbered elimination, and it has one result if positive elevations differ; the line of the detrending is the only least-squares line if data are at two elevations. The run follows step by step, through the cache (C55). Exact arithmetic: in floats a sum in another order differs in the last digits.
* **C140 Origin and units.** Uses the models `Idw` and `Krige` as they are. A change of frame (`Change`) multiplies the distances on the map by `s` and maps heights by `z ↦ unit·z + level`. IDW: all weights of a cell are multiplied by `1/s^p`, infinite ones too, and the quotient stays. Kriging: the elimination loop with its ends (done, degenerate system, exit) is a deterministic relation (`Chain`, FrameLemmas) in which the multiplier scales and the weights stay. The least-squares line moves with the heights. The data: weights sum to one (C56) and the line follows. Exact arithmetic.
* **C141 Generic kriging.** Model `Pykrige`: the instance with its stored trend, `detrendData`, the choice of the stations with a value, the call of `OrdinaryKriging` (a parameter) with its arguments, `execute('grid', ...)` on one row of X and one column of Y, `retrendData`, and the run over the steps. The specification speaks of the places of the cells and of the stations with a value only. `np.polyfit` is a parameter (least squares where needed).
* **C142 beta_0.** Model `Twostream.legLoop`, `Twostream.beta0`. The specification is analytic: Legendre polynomials by degree, orthogonality and value at one (no recurrence), the backward fraction as an integral of the infinite series. Proved by the identities between the polynomials and their derivatives (`LegendreLemmas`: orthogonality, |P_n| <= 1, values at zero), an invariant of the loop over all its variables, and dominated convergence. Full claim false (zeros of the polynomials, g = 1).
* **C143 Exit status.** Model `Start`: the script, the choice of the configuration file (`Setup.choose`), `SMRF.__init__` with its effects on the file system, the choice of the loader, the phases in order (whether a phase raises is a parameter), and the exit status of python. Full claim false (`sys.exit()` without argument). `_partial` for one file without errors.
* **C144 Rounding in IDW.** Model `IdwFloat`: distances, weights, both sums, the quotient, residuals and retrending with a rounding after every operation; a sum is a binary tree of additions, any order. Specification: the weighted mean in exact numbers. Proof: a calculus of relative errors (`Rel`, `Near`) and induction on the trees; rounding to the nearest with n binary digits is shown to satisfy the assumption. "Within the range of the data" is false by one digit (`C144_fails`).
* **C145 HRRR tables.** Model `Hrrr`: tables with labels, `tz_localize`, the alignment of pandas (`reindex`, operators by label) and of numpy (by position), `parse_data`, `calculate_wind`, `get_hrrr_cloud` by column. Specification: entries by time and cell. Proved for tables with the same labels (`_partial`), by label for precipitation and speed in general; the rest is refuted with tables whose cells are in different orders.
* **C146 Two-stream equations.** Specification `TwoEq` (no code): the differential equations of the diffuse fluxes with their boundary conditions, the layer without a bottom, the table of coefficients. Proved about the model `Twostream`: existence by the explicit modes, and for any solution the two eigenvectors give two linear equations whose solution is the closed form of the code. Fluxes are not negative by looking at their least values; energy follows as the net flux is antitone.
* **C147 Best linear unbiased estimate.** Model `Krige` as before. Specification in `KrigeBestProps`: values as vectors of any inner product space with mean square differences proportional to the distance, mean square error of an estimate. Proved by the orthogonality of the error (the kriging equations) and the negative type of plane distances (Crofton's formula); the full claim is refuted with three stations of which one is dropped.
* **C148 Slope, nugget and range.** Model `Krige` with the values of a semivariogram in place of the distances (`krigeWith`). Specification from the user guide: linear semivariogram, zero at distance zero (`semi`) or not (`line`). Proved through the relation `Chain` of C140; the claims on nugget and range are refuted with two stations.
* **C149 Rounding in the storm clock.** `ClockFloat` models the clock with a rounding after every operation; the comparisons that reset it involve no computed number. Proved by induction over the steps with the relative error of the rounding as a hypothesis, and with `binary 53` of C144 for double precision.
* **C150 Configuration items that are described and never read.** `Unread` follows the items from the section to the step: `settings` is what `initialize` keeps of `[precip]`, a run is a fold of `Precip.pptStep`, the net radiation is that of `Solar.day`. Negations with witnesses; `_partial`: where the number of steps matters, when it does not, and the albedo with the item on. That an item is *not* read is a fact about the text (a search for its name in the sources), carried by the model leaving it out.
* **C151 Rounding in the correction for storms.** `ClipFloat` has a rounding after every operation and any order of addition (`Order` of C144); clipping is that of `Storms`, because it only copies. Proved with the calculus of relative errors of C144, against the specification of C25.
* **C152 Rounding in the linear solver.** `LuFloat` is `Lu` with a rounding after every operation (any rounding with relative error at most u). The invariant of the column loop (`Inv`) carries, for every entry, the relative errors of the products in its sum and the growth of the entries, so that L·U is the permuted matrix up to gamma; the two substitutions are treated row by row. Without rounding `LuFloat` is `Lu` (`solver_id`). The right-hand side must have no negative number (`_partial`), see the disagreements.
* **C153 Rounding in the kriging weights.** `KrigeFloat` is the loop of `Krige` with the solver of `LuFloat`; the other parts only copy and compare. The residual bound of C152 is carried through loading and scattering (`Near`), then through the rounds by induction. The bound on the sum needs the size of the multiplier, which comes from the equation of any station kept.
* **C154 Precision of the storm clock after a restart.** `RestartFloat` gives the clock array a precision, that of the file it was read from; operations in place keep it. Bounds by induction over the steps as in C149; the drift is computed exactly with `binary 24`: between 128 and 256 days each hour counts 2731/65536 days.
* **C155 Coordinates in the output files.** `CoordFloat` models the axes written to the files, always `binary 24` whatever the precision option. `binary_exact` shows that numbers with few digits are kept; the distance and the order follow from the relative error of rounding.
* **C156 Limits in the output files.** `DiskFloat` is the run of C129 with every number rounded when it is written. A refinement by induction over steps and variables (`C156_files`) shows the files are those of the exact run, rounded; monotonicity of rounding to nearest (`C156_monotone`, by cases on sign and exponent) then carries limits and order over.
* **C157 A run in two parts.** `Split.resume` is the state of new objects with the clock of the file. A simulation over the steps of `Run` (`C157_split_partial`: states with equal clocks give equal images) covers the modules; an induction over the storm search with shifted row numbers (`loop_shift`) covers the table of storms.
* **C158 Restart from files.** `Reread.second` runs `DiskFloat.runFiles`, decodes the times of its file as in `Stamp`, takes the record before the start date as in `Restart`, and runs `Split.resume`. `previous_clock` (induction over the records, with the divisibility argument of C126 for the dates) and C129, C156, C157 are composed.
* **C159 Dew point in single precision.** `DewFloat` puts the two conversions to `float` of `dewpt` and the one of `cdewpt` around the solver of C43, with `IdwFloat.binary` as in C144. Error bound by the triangle inequality over the four roundings, order by monotone rounding (C156), files by the 24 digits of a `float`.
* **C160 Log.** `Logs` is a state machine (loggers made, loggers disabled, root handler, contents of the sinks) with the operations of a process; invariant (known = used, disabled within known) by induction over the history, then induction over the messages of the run. Python's `logging` is modelled from its documentation.
* **C161 Kriged cell with rounding.** `KrigeCell.kriged` puts residuals, products, an arbitrary summation tree and the trend around the weights of `KrigeFloat` (C153); the error calculus of C144 (`Near`) gives the bound, C153 the range.
* **C162 Digits of the sun position.** `SunDigits.reread` prints a real number with fixed decimals or significant digits (nearest, ties to even, sign apart) and reads the nearest `double`; `C162_sunang` joins it to the ephemeris of C90. Printing is monotone, so the ends of the ranges, which are printed exactly, give the ranges.
* **C163 Two-stream coefficients with rounding.** `TwoFloat.exponent` is `beta_0`, `mwgamma` and lines 60-78 of `twostream` with a rounding after every operation. The numerators of `gam1` and `gam2` are followed through their twelve operations (`upper_error`, `lower_error`: 91 and 93 units); their exact difference is `(1 - omega)(8 - 4 g^2)`.
* **C164 Upwind horizon with rounding.** `HorizonFloat.slope` has a rounding after every operation, the loops are those of `Horizon`. The distance, the rise and the quotient are followed to an error `ε` of a slope. The search is then followed with slopes that are known up to `ε`: the invariant gives for every point already done a bound on how far a later point is above its horizon, in terms of the number of hops from the point to the end of the line. Every turn of the inner loop adds `2 ε` and takes one hop away, so the bound at the first point is `4 N ε`. Partial: straight profiles only (C64 shows that others fail without rounding too), and the chosen point need not be the highest (`C164_fails`). Overflow and the rounding of the arc tangent are not modelled.
* **C165 Upwind horizon on lines in any direction.** No new model: `Horizon.cellMaxus` with `Bres.findLine`. The cells of a line move on along one axis at every step, so the length `ℓ` of the line between two cells is at most 1.083 times their distance `r` (Cauchy-Schwarz; `√2` if the cells are not square). The invariant for a point already done, with horizon `m` and slope `σ` to it: every later point is below the line of slope `max σ 0` measured along `ℓ`, and every point before `m` is not above `m`. The second part is what keeps the loss from building up: with it and the triangle inequality the first part passes from `j` to its horizon with the same constant. The instrument height costs its share `h / δ` as in C64. `C165_sharp` gives 7.9 percent on three cells.
* **C166 Raising the terrain upwind.** No new model. On straight lines the reported slope is the maximum (C64), which is monotone. In any direction it lies between the maximum and the maximum over 1.083 (C165), which bounds the loss. The datum and the unit: the slopes do not change, or are all multiplied by the same positive number, which no comparison of the search can see (induction over both loops). False as stated: `C166_fails`.
* **C167 More snowfall and the age of the snow.** No new model: two runs of `Precip.pptStep` side by side, related step by step by `Wetter` (same temperatures, nowhere less precipitation, storms go on). For marks2017 the invariant is that the days of the second run are between zero and those of the first; a cell that is reset in the first is reset in the second. For susong1999 the invariant also has the hidden storm mass (enough in the first implies enough in the second), which survives only under `Enough`. The albedo follows by C36. False as stated: a trace of snow ages the snow by a day (`C167_trace_fails`), light snow replaces the mass of the storm before it (`C167_overwrite_fails`), and more rain at a station takes precipitation from another step (`C167_clip_fails`).
* **C168 Warmer air.** As C167, with `Warmer` (same precipitation, nowhere a lower temperature) between the steps. The share of snow falls with temperature for both snow models (C29, C30); the clock of marks2017 follows by induction. The cut of the dew point below the air temperature is monotone in the air temperature. For susong1999 false as stated: rain keeps the mass of the storm before it, light snow replaces it (`C168_rain_fails`).
* **C169 Which steps belong to a storm.** No new model: `Storms.trackingByStation` and `Storms.basinLoop`. The closed forms follow from the cover, the dry-spell law and the law of the end of a storm (C23, C24, C26), by looking at the last wet step up to the step in question. Monotonicity and independence of later steps are read off the closed form.
* **C170 Net solar radiation follows cloud, canopy and albedo.** No new model: `Solar.cloudCorrect`, `vegCorrect` and `calcNet`, composed as in `Solar.day` (`netOf_day`). Albedo and canopy: monotone, any limits. Cloud: refuted; monotone up to a factor of 0.79 (the slope of cf(2-1.38(cf-.15)^2)) where the canopy passes the beam at least as well as the diffuse light; the excess is bounded. The clear-sky images are the same in both runs.
* **C171 Thermal radiation follows moisture, temperature and cloud.** No new model: two runs of `Thermal.distribute`. The stages after the clear sky keep the order (`later_le`); the clear-sky methods one by one. For Prata the emissivity grows at most with the fourth power of the water (`prata_power`), which the fourth power of the temperature makes good. For Dilley the sixth power outweighs the root.
* **C172 A higher reading lowers no cell.** No new model: `Idw.calculateIDW`, `detrendedIDW`, `krigedCell`. Without trend by the weighted mean of C53, over two lists of stations in parallel. With trend the least-squares slope is unique when the elevations differ (`line_unique`), so a cell is linear in the readings; the coefficients are given in closed form. Refuted above the stations.
* **C173 More shelter never means less snow.** No new model: `Precip.driftCell`, `distPrecipWind`. The cubic of the exposed cells is increasing (its derivative has no root), vegetation factors and limits keep the order, and the jump to the drift formula goes up when `max_scour <= min_drift`. Refuted for overlapping limits. With the defaults the wrong constant of the cubic (C34) makes every exposed cell up to 15 degrees lose the maximum.
* **C174 Undercatch grows with wind, without shield, in colder air.** No new model: `Precip.adjustStation` for one station. Wind and shield by monotone powers; snow against rain by tangents of the power and convexity of the exponential on four intervals of wind speed. Refuted for shielded gauges in light wind.
* **C175 Moister air has no lower dew point.** No new model: `Run.dewImage` with the solver of C43. Every result of the solver, whatever the number of rounds allowed, is within twice the tolerance of the true dew point (C43), so two results are ordered up to twice that. Refuted near saturation, where the correction `ta - 0.2` lowers the dew point; `C175_snow_fails` follows it to the snow table.
* **C176 Wet-bulb response.** No new model: `WetBulb.wetbulb`. The latent heat falls with air temperature and dew point across its three formulas; so where the psychrometric equation of the first state is not yet balanced, that of the second is not either. With the sign change around each returned value (C44) the values are in order up to what each may be off.
* **C177 Bounces between ground and sky.** No new model: `Twostream.twostream`, `stoporad`. Specification: geometric series, and a layer lit from below in the equations of `TwoEq`. The numerator of the transmittance does not depend on the ground, the denominator is linear in its reflectance with the slope that the equations give. Monotone in the reflectance, absorbed part antitone; through the mean albedo to the images. Negation for weak scattering. `_partial`.
* **C178 Density of new snow.** No new model: `Nasde.phaseAndDensity` twice. The density of the Marks 2017 model is the uncompacted density plus overburden plus metamorphism; the uncompacted density grows with the temperature, the other two lose at most 0.48 and 0.046 of that growth up to 50 mm (bounds on `x exp (-x)`), and the fraction of snow falls by at most 3/4 per degree where the density grows by at least 10.2. Negation from 1200 mm on, for domains of any size. `_partial`.
* **C179 Marks and Dozier's method in warmer air.** No new model: two runs of `Thermal.distribute` with `topothermC`. The fourth power of the temperature is taken into the seventh root of Brutsaert's emissivity as its 28th power; saturation pressure grows no faster than the 27th power (over ice from 230 K, over water up to boiling, bounds on the logarithms of the two formulas), and the ratio to the temperature at sea level and the pressure grow. At the freezing point the formulas differ by less than 0.4 %, which half a degree makes good. Negation by continuity of the water formula, every cell up to 4000 m. `_partial`.
* **C180 Errors of readings.** No new model: `Idw.calculateIDW`, `detrendedIDW`, `krigedCell`. Without trend from C172 and the shift of C53. With trend a cell is the weighted mean plus the limited slope times the height above the weighted mean of the elevations (`kriged_limited`; dropping the trend is the limit zero, so there is no jump), limiting is non-expansive, and the slope changes by at most the error over the standard deviation of the elevations (Cauchy-Schwarz). Reached by two stations. Refuted for every factor high above the stations. `_partial`.
* **C181 Missing readings.** No new model: `Idw.calculateIDW`, `detrendedIDW` with the value of one station `none` in one of two calls. Subtract the two weighted means of C53: the weights of the others do not change. With trend: three readings whose falling trend is dropped and two whose rising trend is kept, so the cell goes from between the readings to the extrapolated line. `_partial`.
* **C182 Errors of cloud factor and albedo.** No new model: `Solar.cfCloud`, `vegCorrect`, `calcNet` as in C170. The limits are non-expansive; the diffuse share of cloudy light is a cubic whose difference has the factor of the error, bounded on [0.15, 0.99]. At 0.99 the code switches to the diffuse light of the clear sky, without a match: refuted with an ordinary cell and the usual limits. `_partial`.
* **C183 Errors of the precipitation temperature.** No new model: `Nasde.phaseAndDensity`. The fraction from C30 with non-expansive limits. The density as an exponential: the exponent changes by at most 0.56 per degree (logarithm of the base, product rule without derivatives), times its largest value. The table and the density of Marks 2017 jump: refuted. `_partial`.
* **C184 Errors of cloud factor and canopy in the thermal radiation.** No new model: two runs of `Thermal.distribute`. The clear sky is the same, each cloud method is affine in the cloud factor (Kimball's does not use it), canopy with a fraction and limits are non-expansive. Reached by Crawford's method in the open.
* **C185 Errors in the undercatch correction.** No new model: two calls of `adjustStation` for one station. The rate in the wind for snow is the slope of the fitted power at the cap of 6 m/s (Bernoulli's inequality for real powers), for rain the slope over the least catch; the catch is never below a fifth. In the temperature the claim is false: the fitted curves for rain and snow do not meet at -0.5 degrees.
* **C186 Errors of age and angle in the albedo.** No new model: two calls of `albedo` and of `Albedo.distribute`. The growth function has slope at most 0.27 from the first day on (exact difference quotient, polynomial inequality); visible albedo is affine in the grain, infrared has slope at most 0.01815; the share of clean snow has slope at most `-log (1 - r)`; limits are non-expansive. In the angle the claim is false at the horizon, where the correction for a low sun is switched on at its full size.
* **C187 Errors in the Winstral wind.** No new model: two calls of `flatten` and `cellWind`. The fitted cubics lie between 1 and 4.22 and rise by at most 0.31 a degree (polynomial inequalities on their intervals); the wind is linear in the reading. In the slope the claim is false where the classes meet.
* **C188 Errors in the redistribution by wind.** No new model: two calls of `driftCell`. Linear in the precipitation; in the wind the drift factor is the exponential of a quadratic, and limits that are not negative keep a bound by a factor. False in temperature and shelter, where the three assignments meet. In the slope the cubic of the scour rises by at most 0.73 a degree up to 32 degrees.
* **C189 Errors of the vapor pressure in the dew point.** No new model: two runs of `dewPoint` (C43). Close to the returned temperature there is one with at least and one with at most the given pressure (also for pressures in the jump of the saturation curve at freezing, which no temperature has); the slope of the saturation curve turns the pressures into degrees.
* **C190 From the readings to the dew point.** No new model: `Idw.calculateIDW`/`detrendedIDW`, then `Vapor.distribute` on their image, with any solver that returns what `dewPoint` ends with (`Solves`; an example shows one). The bounds of C180 and C189 are composed; the limits do not enlarge a difference. Cells at a station are left out (they are NaN, C53).
* **C191 Errors of the sky view factor in the thermal radiation.** No new model: two runs of `Thermal.distribute`, and a third without terrain correction that names the radiation of the open sky. The terrain term has the temperature in degrees Celsius, as in the code (C52), so the error counts almost with the whole of the sky's radiation. For Marks the emissivity of the sky is between 0 and 1 because the pressure does not exceed that of the sea level (`press_share`).
* **C192 Errors of the vapor pressure in the thermal radiation.** No new model: two runs of `Thermal.distribute`. The three emissivities rise with the vapor pressure (C78); the rates come from the tangent of the exponential and from the difference of squares of the roots. The rest of the step as in C191; partial, with a negation for dry air.
* **C193 Errors of the dew point in the thermal radiation of Marks.** No new model: two runs of `Thermal.distribute`. Saturation grows no faster than the 27th power of the temperature (C179), so the emissivity, a seventh root, no faster than the fourth power; across the jump at freezing the lower dew point is replaced by one half a degree below the higher.
* **C194 Errors of the air temperature in the thermal radiation.** No new model: two runs of `Thermal.distribute`. The three clear skies rise with the temperature (C171) and, as the precipitable water falls, no faster than the black body (Dilley: than its sixth power); terrain, clouds and canopy are means of terms with that rate, except Garen's factor.
* **C195 Errors of the weather together.** No new model: the runs in between exist because the three clear-sky methods never fail; the bounds of C194, C192 and C184 add up.

## Disagreements between code and property

Each is proved as a theorem whose name ends in `_fails` (or is stated in the theorem named).

* C04, C05: non-blocking queue calls fail silently; a queue that is full blocks the producer of a date that is needed.
* C09: deadlock with output frequency above 1, with the solar corrections switched off, and with winstral rescaling without the winstral wind model.
* C10: `flatwind` is the name of two things; configured outputs can be dropped. C11: the default capacity 2 lets a later step overwrite an array in use. C12: the last step is not written unless it is a multiple of the frequency. C13: float32 time axis. C14: NaN outside of the mask spreads.
* C22: the station list of a section is ignored (`list.sort()` returns `None`). C25: a station whose precipitation is entirely outside of storms loses it. C27: the storm clock counts steps, does not accumulate, and its reset is sticky.
* C31: variable unbound without the temperature check; dry cells get a density of at least 50. C32: seven quantities share one array. C33: the calm-air ratio exceeds 1. C34: the cubic uses `a` in place of `d`; NaN cells become 0. C35: without undercatch correction station precipitation is not updated.
* C37: the dirt test is never true. C38: division by zero. C41: 0 K gives 0. C42: the unit is decided by the first element. C43: a pressure is compared with a temperature tolerance; vapor pressure 0 never ends. C44: signed correction.
* C45: diffuse radiation is counted twice. C46: outputs of switched-off corrections raise before the first night and are zero afterwards. C51: Garen is 0.3 % low at clear sky; Kimball ignores the cloud factor. C52: Celsius to the fourth power. C53: NaN at a station's own cell. C56: negative weights are kept for elevations ≤ 0. C57: `sum > 0.0` skips negative right-hand sides.
* C59: non-integer step. C60: wind 0 at exactly 21.3 and 30.1 degrees. C61: stale or unbound `val_maxus` with a peak list. C62: lines are cut after 500 cells. C63: steep lines give an empty path. C64: with height above ground and zigzag lines the result is not the maximum. C65: 360 is not mapped to 0; misaligned windows give NaN. C66: extrapolation gives negative speeds. C68: latitudes up to 360° accepted.
* C70: a missing image takes the data of the one before. C73: gridded wind components are exchanged. C74: one missing cell in the first step makes every cell clear sky. C75: the row counter is shared by the variables; the PRMS format fails with two or more. C97: a station without wind stops the Winstral model.
* C77: division by zero at resonance; negative diffuse flux. C78: Dilley exceeds black-body emission in deep cold. C79: dew point 0 K. C80: marks1979 without terrain correction. C82: not monotone at 21.3. C83: constants differ beyond 30 degrees. C86: NaN for height 0. C87: mirrored search for rows going north. C88: NaN on the right edge. C92: right ascension at the autumn equinox (`C92_autumn_equinox`). C93: day number from 2101 and in 1897.
* C98: local trends with the accepted method `nearest` return `None`; of two cells at the same place only one is used. C99: kriging ignores `detrend_slope`; detrended kriging detrends with `detrend = False`. C101: the absolute value of the horizon shades cells that look down. C104: fractional netCDF times are cut off, so all hours of a day in a file in days become one time; WRF runs in any time zone but UTC stop with a TypeError. C105: the first step of a threaded HRRR run has no cloud factor at night, and the second is clear sky at dusk.
* C106: the wind of the stations is assigned by position in two lists that need not have the same order, and a single value is assigned to all pixels. C107: `np.interp` is given row numbers only, so a missing cell in a row with values gets the last value of the row. C108: `winstral_veg_<class>` keys are all stored as `veg`, and redistribution then stops with a ValueError. C109: a restart date that is not in the file gives zeros without a warning; an output frequency of two loses steps; `susong1999` does not restore the storm total. C110: a storm that starts with all cells at 2 degrees or more keeps the storm total of an earlier storm; the total leaves out steps below the threshold, which are distributed.
* C112: outside the grid of a WindNinja file directions are extrapolated by components and may turn away from all directions of the file.
* C113: an ASCII grid without its optional sixth head line is read with all values a row too far north.
* C114: in the hour repeated at the end of summer time both steps read the same WindNinja file.
* C115: the box for gridded data is made from the lower left and upper right corners; in a wide domain the other corners may lie outside.
* C116: the backup of the input can never be loaded: its metadata have no column `primary_id`, and its times have offsets.
* C117: a directory without configuration file raises `IndexError`.
* C118: the index `i*nsta` is an `int` product and overflows for grids with 2^31 or more pairs of cell and station; without any station with data kriging ends the process; `lusolv` uses an uninitialised variable when a column is all NaN (not reachable from kriging).
* C120: `int ngrid` is the number of cells cut to 32 bits; the wrappers do not compare the shapes of their arguments.
* C121: `dist_precip_wind` reads `tbreak_threshold`, which is not an item of the configuration (it is called `winstral_tbreak_threshold`): with the rescaling on, the first cold step ends the run (`C121_rescale_fails`). The recipe for gridded data removes `maxus_netcdf`, which the Winstral model (the default) reads (`C121_wind_gridded_fails`). The decay by dates without dates is accepted and ends with an attribute of `None` (`C121_dates_fails`).
* C122: the outer search of `tbreak` begins at the cell and not at the separation distance, so it contains the near one and the break is never positive with the instrument on the ground (`C122_fails`, `C122_formula_partial`) and at most a few degrees with one (`C122_height_partial`); the drift cells of `dist_precip_wind`, breaks above a threshold of 7 degrees, do not occur on grids of 17 m and more (`C122_drift_fails`). The guard looks at dx only (`C122_guard_rows_fails`).
* C123: the time of a record is the clock without its offset, so the hour before the clock is put back is overwritten (`C123_autumn_fails`, `C123_fails`). `replace(tzinfo=zone)` gives the dates of the decay the first offset of the zone, e.g. -7:53 for Los Angeles (`C123_decay_shift_fails`). `water_day` looks up `tzname()` as a zone, which raises for PST, PDT, MDT and most abbreviations, at the first step (`C123_names_fails`).
* C124: beyond 100 micrometres the interpolated spectrum is negative (`C124_negative_fails`; no band in use reaches so far). The table is normalised by another constant than the one it is multiplied with: all of it makes 97.4 percent of `SOLAR_CONSTANT` (`C124_constant_fails`).
* C125: the maximum of precipitation is applied before redistribution by wind, which may lift a cell above it (`C125_precip_max_fails`); at night the albedo images are 0, below a positive configured minimum (`C125_albedo_night_fails`).
* C126: the time variable has single precision. A start date that is not a whole number of quarters of an hour after that of the file is not found on restart, and the storm clock silently starts at zero (`C126_restart_fails`); with numpy 2 every rerun of such steps adds records instead of replacing them (`C126_double_fails`); beyond 2^18 hours steps of a minute collide (`C126_collision_fails`).
* C128: an existing output file is opened without a check of its time zone, start date or coordinates. A run in another zone writes its local times on the clock of the file (`C128_zone_fails`), a run on a shifted grid of the same shape writes images that the file places elsewhere (`C128_grid_fails`), a run on a grid of another shape aborts after having added a record of fill values (`C128_shape_fails`); a run of earlier dates leaves a time axis that is not sorted (`C128_sorted`).
* C130: `time_out` has no default, so that in a threaded run (the default) a gap in the input makes the thread of the variable wait for ever (`C130_hang_fails`); the serial run ends with a `KeyError`. A doubled date is treated differently by the two (`C130_duplicate_fails`).
* C131: the model derives the step from the number of directions (360 / nbins) instead of reading the directions, so that with an increment that does not divide 360 some azimuths match no direction and the run ends with an `IndexError` (`C131_increment_fails`). An interrupted `gen_maxus` leaves a file that looks complete (`C131_interrupted_fails`). `type=bool` makes every word true (`C131_flag_fails`).
* C132: jobs whose serial run ends hang in threads when the output frequency is above 1 (`C132_frequency_fails`) or a solar correction is off (`C132_corrections_fails`); both are defects of the network (C09), here shown of whole runs.
* C133: the enhancement of a station is looked up among all options of `[wind]`: a station MAX gets the limit of the wind speed, a station DISTRIBUTION ends the run (`C133_option_fails`, `C133_abort_fails`). The column is written into the table that the data class owns, so that a second initialisation ignores its configuration (`C133_again_fails`). Numeric station ids end the loading with an `AttributeError` (`C133_numbers_fails`).
* C134: the docstring says the class reads files as WRF writes them, where XLAT, XLONG and HGT have the dimension of the time. Then `station_index` has three columns and the first two, time and row, are used as row and column (`C134_timed_fails`, `C134_long_fails`, `C134_twice_fails`).
* C135: the configuration offers `all`, but no code knows the word: it is logged as "not an output variable" and nothing is written (`C135_all_fails`). `SMRF.output` and the output thread read `out_func.variable_dict`, which `output_hru` does not have, so that a run with HRU output ends at its first step (`C135_hru_fails`); C75 and C96 are about the class alone.
* C136: an exception in a thread is seen by nobody. With the default `time_out` the others wait for ever (`C136_hang_fails`); with a time-out they end themselves one by one by `sys.exit()`, which ends a thread only, and `run_smrf` returns as after a complete run (`C136_silent_fails`). A time-out shorter than the slowest computation has the same effect in a run without errors (`C136_slow_fails`).
* C137: the marks2017 model corrects the precipitation by the total of the whole period, so drizzle after a storm raises the precipitation of the storm (`C137_drizzle_fails`), and a run that is restarted or cut differs from the long run; the HRRR cloud factor of the night depends on the next morning (`C137_cloud_fails`).
* C138: a cell's images depend on the rest of the domain: days since the last storm (`C138_storm_fails`, susong1999 models), snow percentage of dry cells (`C138_percent_fails`), clear-sky diffuse radiation through the mean albedo (`C138_sun_fails`).
* C139: kriging drops the first one listed of the stations with negative weight at the same elevation, so that the weights depend on the order of the metadata (`C139_tie_fails`, stations at real places); of two stations in one pixel the wind of the last one listed counts (`C139_pixel_fails`).
* C140: kriging removes negative weights only of stations above zero (`elevations[m] > elevsave` with `elevsave = 0.0`, krige.c 169-175), so that the weights depend on the level heights are counted from (`C140_sea_fails`).
* C141: `krig_coordinates_type` is read into the instance (kriging.py 52) but not passed to `OrdinaryKriging`; `geographic` has no effect (`C141_coordinates_fails`).
* C142: the rule to stop looks at one term; where the cosine of the sun is a zero of a Legendre polynomial of odd degree, the sum ends there (`C142_accident_fails`, default parameters). The branch for no convergence tests `n == MAXNO`, but `n` ends at `MAXNO - 1`: the warning and the clipping are never executed (`C142_silent_fails`).
* C143: `sys.exit()` after errors in the configuration (model_framework.py 134), for several configuration files (utils.py 100) and for a missing file (utils.py 110) has the exit status 0, as a run that was carried out. `can_i_run_smrf` raises before its `return False`.
* C144: with rounding, a cell may lie outside the range of the data: three stations reporting 0.1 give 0.10000000000000002 (`C144_fails`).
* C145: `parse_data` takes humidity (hrrr_grib.py 148-150) and the components for the wind direction (188-190) by position, everything else by label; tables with different orders are mixed up without an error.
* C147: dropping stations with negative weights (krige.c 166-186) can give an estimate with a larger error than the best unbiased one. The comment in krige.c says that stations are dropped; docs/user_guide/dist_methods.rst 119-131 does not.
* C148: the user guide (dist_methods.rst 126-131) says that the weights are independent of the nugget and that only stations close to the cell are used. The first holds only if the nugget is counted at distance zero too; the second does not hold: krige.c sorts the distances (lines 97-115) but then flags all stations (118-123).
* C150: `susong1999_timesteps_to_end_storms` is never read: `initialize` takes `marks2017_timesteps_to_end_storms` for every model (precipitation.py 169), and it is handed to `time_since_storm`. `correct_albedo` of `[solar]` is never read: the radiation is always multiplied by one minus the albedo (solar.py 335, 469-493).
* C152: as in C57, `sum > 0.0` in the forward substitution skips negative right-hand sides; `C152_fails` is a witness. Kriging only passes numbers that are not negative.
* C153: as in C56, a negative weight stays at stations at or below sea level, also in double precision (`C153_negative_fails`).
* C154: after a restart from a file in single precision (the default) `self.storm_days` is a single precision array and stays one, because it is only changed in place; a run that was not restarted uses double precision.
* C155: `createVariable('y', 'f', ...)` and `'x'` are single precision even with `netcdf_output_precision = double`; at UTM northings the step is 0.5 m.
* C156: the lowest wind speed 0.447 is not a number in single precision; in the default files calm cells have 14998831/2^25, which is below the configured minimum.
* C157: `storm_days_restart` restores the days but not the storm mass, which `time_since_storm` also reads, so that with susong1999 a restarted run ages the snow of a dry cell that the uninterrupted run keeps fresh; the storm table of a restarted run knows nothing of a storm in progress or of earlier drizzle.
* C158: dates are stored as hours in single precision, so that a start date that is not a number of whole quarters of an hour after the start of the file is not found and the storm clock becomes 0 (logged as a warning); with `mask_output` it becomes 0 outside the mask; with an output frequency above 1 it is that of an earlier step.
* C159: a dew point that is by less than 2^-15 degrees below an edge of the table of susong1999 can be converted to one above, so that a cell gets 25 percent less snow (`C159_fails`); the `float` in `dewpt.c` serves no purpose.
* C160: `dictConfig` is called without `disable_existing_loggers: False`, so that a second `SMRF` object in one process disables the loggers of all modules used by the first and its run is silent, errors and warnings included (`C160_silent`, `C160_fails`).
* C161: with stations at or below sea level the estimate can leave the range of the data far beyond rounding (`C161_fails`), for the reason given at C56.
* C162: a sun above the horizon by less than 5e-7 in the cosine is taken for a sun that is down (`C162_fails`).
* C163: with `clear_omega = 1` a run can stop with the ValueError of `twostream` because of rounding (`C163_fails`). The number that is added to `gam1` for conservative scattering (twostream.py 74-75) comes after the comparison that raises the error, and helps only when the two roundings agree.
* C164: for six cells in a row the point chosen by `hord` is not the highest, because two slopes that differ in the last digit are compared in the wrong order (`C164_fails`). The error is harmless in size (`C164_double_partial`).
* C166: raising the middle cell of the line (0,0), (1,0), (2,1) lowers the upwind horizon of the first.
* C167: half a millimetre of snow in a dry hour makes the snow a day old instead of an hour (susong1999); light snow after a storm makes the snow older; more precipitation outside the storms lowers the precipitation of a storm at the station.
* C168: light precipitation after a storm leaves the snow a day old if it is snow, new if it is mostly rain (susong1999).
* C170: because the diffuse part is counted twice (C45), a cloud can raise the net radiation above that of the clear sky (cloud factor 0.75 against 1, in every open cell with at most a tenth of diffuse light).
* C171: with the cloud method of Kimball moister air can give less thermal radiation; the terrain term (C52) falls as air below zero warms; with the method of Dilley clouds take radiation away at -100 degrees.
* C172: with an elevation trend a higher reading at a low station lowers the cells above the stations.
* C173: with `winstral_max_scour` above `winstral_min_drift` a cell that becomes sheltered can lose snow.
* C174: in light wind a shielded gauge is corrected more for rain than for snow.
* C175: the dew point falls by up to 0.2 degrees when a nearly saturated cell becomes saturated, which can turn rain into snow.
* C177: with weak scattering (`omega (4 - 3 g) < 1`) the back-scattering coefficient is negative and a brighter ground gets less light (without scattering, every optical depth up to 1); no assertion of the code notices.
* C178: with 1200 mm or more in a step the Marks 2017 model makes the snow of a cell at 0 degrees lighter than that of a cell at -10 degrees (overburden compaction has no limit in the amount). Between 50 and 1200 mm the theorems say nothing.
* C179: the saturation formulas over ice and water do not meet at the freezing point (C41), so that the clear-sky radiation of Marks and Dozier drops a little as the air warms past it (every cell above sea level up to 4000 m that sees some sky).
* C180: with an elevation trend an error in a reading is multiplied without limit high above (or below) the stations.
* C181: with an elevation trend one missing reading can change a cell by any amount, however narrow the range of the readings.
* C182: at the cloud factor 0.99 the diffuse radiation, and with it the net radiation, jumps (`cf_cloud` switches formulas that do not meet).
* C183: the Susong 1999 table jumps at the borders of its classes, and the density of Marks 2017 jumps to zero where the last snow turns to rain.
* C185: at -0.5 degrees the undercatch correction changes from the curve for rain to that for snow in one step; with an unshielded gauge in wind of 6 m/s the corrected reading rises by at least one and a half times the reading (`C185_phase_fails`).
* C186: a cell whose sun angle is 0 gets the albedo without correction, one with an angle just above 0 gets the largest correction (`C186_horizon_fails`).
* C187: the reduction factor is applied to exposed cells only, so with a factor below 1 a slightly exposed cell gets less wind than level ground (`C187_level_fails`).
* C188: a sheltered cell in strong wind at just under 0.5 degrees gets 3.5 times the snow it gets at 0.5 degrees, and a cell just above the threshold of the shelter 3.5 times what it gets at the threshold or more (`C188_temperature_fails`, `C188_shelter_fails`).
* C192: with the method of Dilley and a minimum vapor pressure of 0 no bound per Pa holds.

## Files

Model modules and the source they follow (lemma and property modules have the same name with `Lemmas`, `Props` or a topic added):

| module | source |
|---|---|
| Queue, Network, Pipeline, Alias | utils/queue.py, framework/model_framework.py (threaded run), distribute/* (queue calls) |
| Output, Hru | output/output_netcdf.py, output/output_hru.py, model_framework.py `output` |
| Calendar, Utils | utils/utils.py |
| Storms, StormsBasin, Nasde, Precip | envphys/storms.py, envphys/snow.py, envphys/precip.py, distribute/precipitation.py |
| Albedo | envphys/albedo.py, distribute/albedo.py |
| Vapor, Dewpoint, WetBulb | envphys/core/dewpt.c, iwbt.c, envphys/vapor_pressure.py |
| Solar, Twostream, Sun | envphys/solar/*.py, envphys/sunang.py, distribute/solar.py |
| Thermal | envphys/thermal/*.py, envphys/core/topotherm.c, distribute/thermal.py |
| Idw, Lu, Krige | spatial/idw.py, spatial/dk/*.c, *.pyx, spatial/dk/dk.py |
| Wind, Bres, Horizon, Window, Ninja | distribute/wind/*.py, utils/wind/*.py, *.c |
| GridInterp, Atmos, NcInput | spatial/grid.py, distribute/image_data.py, envphys/solar/{toporad,irradiance}.py, data/netcdf.py, data/wrf.py, data/hrrr_grib.py |
| WindFill, ConfigVeg, Restart, StormRun | distribute/wind/winstral.py, distribute/{precipitation,albedo}.py, envphys/precip.py, utils/utils.py |
| Omp | envphys/core/{topotherm,iwbt,dewpt}.c, spatial/dk/krige.c, utils/wind/calc_wind.c (pragmas and loops) |
| NinjaDir | distribute/wind/wind_ninja.py, utils/utils.py (`get_asc_stats`) |
| Setup | data/input_data.py (`model_domain_grid`), utils/utils.py (`backup_input`, `find_configs`, `handle_run_script_options`), data/csv.py |
| CMem, KrigeMem, KrigeMemRef | spatial/dk/krige.c, lusolv.c, array.c, detrended_kriging.pyx |
| BresAny, MaxusMem, MaxusMemRef | utils/wind/calc_wind.c, breshen.c, wind_c.pyx |
| Wrap | envphys/core/envphys_c.pyx and the loops of topotherm.c, dewpt.c, iwbt.c |
| Items | framework/CoreConfig.ini, recipes.ini; the items read by distribute/*.py, spatial/*.py, envphys/precip.py |
| Tbreak | utils/wind/model.py `tbreak`, `maxus_angle` |
| Zone | framework/model_framework.py `_setup_date_and_time`, decay dates; utils/utils.py `water_day`, `date_range` with zones; data/csv.py index |
| Spectrum | envphys/solar/irradiance.py `solar_data`, `solint` |
| Run, RunSpec | framework/model_framework.py `distribute_single_timestep`, serial loop |
| Stamp | output/output_netcdf.py time variable, distribute/precipitation.py restart |
| RunChain | relations between the images of Run |
| VaporDecay, WetBulbConv, WetBulbLoop, RunWet | lemmas about the wet-bulb loop of WetBulb and its use in Run |
| Sessions | output/output_netcdf.py `__init__` (open or create), `output` over several runs |
| RunFiles | framework/model_framework.py serial loop with `output` |
| Feed | data/input_data.py `set_variables`, framework/model_framework.py `create_data_queue` and the lookups by date |
| MaxusLib | scripts/gen_maxus, utils/wind/model.py `maxus`, `output_init`, `output`, the lookup in distribute/wind/winstral.py |
| Threaded | framework/model_framework.py 486-632 and utils/queue.py 240-300 with the modules of Run in the threads |
| StationEnh | distribute/wind/winstral.py 125-149, data/csv.py 43-48 |
| Wrf | data/wrf.py 59-180 |
| OutAsked | framework/model_framework.py 663-749, framework/CoreConfig.ini 1129-1165, output/output_hru.py 34-72 |
| Crash | framework/model_framework.py 486-632, utils/queue.py 68-194, 217-235 (ends of threads) |
| Causal | no code of its own: dependence of the models above on later input |
| Crop | no code of its own: runs over a part of the domain |
| OrderProps | no code of its own: Idw, Krige, WindFill with the stations in another order |
| FrameLemmas, FrameProps | no code of its own: Idw, Krige with other coordinates and units |
| Pykrige | spatial/kriging.py; pykrige and polyfit are parameters |
| LegendreLemmas, BetaLemmas, BetaProps | envphys/solar/twostream.py 170-247 against the Legendre series |
| Start | scripts/run_smrf; framework/model_framework.py 87-181, 774-820; data/input_data.py 70-114; phases, inicheck are parameters |
| IdwFloat | spatial/idw.py 52-144 with rounding; no overflow, infinities, NaN; np.polyfit is a parameter |
| Hrrr | data/hrrr_grib.py 122-195; envphys/solar/cloud.py 46-88 by column; files, pd.to_numeric, broadcasting of single rows not modelled |
| TwoEq | no code: the two-stream equations as specification of envphys/solar/twostream.py |
| KrigeBestProps, KrigeNuggetProps | no new code: spatial/dk/krige.c and dk.py as modelled in Krige |
| ClockFloat | envphys/storms.py 98-111 and distribute/precipitation.py 335, 384-406 with rounding; no overflow, infinities, NaN |
| Unread | framework/CoreConfig.ini 611-660, 1022-1025, distribute/precipitation.py 164-171 (which item is kept); steps from Precip and Solar |
| ClipFloat | envphys/storms.py 269-323 with rounding and any order of addition; no overflow, underflow, infinities |
| LuFloat (+LuFloatLemmas, LuFloatSolve) | spatial/dk/lusolv.c 26-202 with rounding after every operation; no fused multiply-add, overflow, underflow, infinities |
| KrigeFloat | spatial/dk/krige.c 66-216 with the solver of LuFloat |
| RestartFloat | distribute/precipitation.py 119-162 (type of the array), 384-395, envphys/storms.py 94-111 in single and double precision; no overflow, underflow |
| CoordFloat | output/output_netcdf.py 57, 86-93, 139-140, utils/wind/model.py 474-477, 496-497 (the axes only) |
| DiskFloat | framework/model_framework.py 386-402, 704-749, output/output_netcdf.py 57, 90-93, 184-188 with rounding of the values written |
| Split | distribute/precipitation.py 119-162, framework/model_framework.py 365-402: a run that is started again |
| Reread | distribute/precipitation.py 132-157 on the files of framework/model_framework.py 365-402, 704-749 |
| DewFloat | envphys/core/dewpt.c 14-49, envphys/core/envphys_c.pyx 73-97, distribute/vapor_pressure.py 140-146 with single precision |
| Logs | framework/logger.py, framework/model_framework.py 108-113 |
| KrigeCell | spatial/dk/dk.py 62-97, 129-132, 152-168 with rounding |
| SunDigits | envphys/sunang.py 37-51 |
| TwoFloat | envphys/solar/twostream.py 60-78, 131-247 with rounding |
| HorizonFloat | utils/wind/calc_wind.c 188-263 with rounding |
| HorizonBent | (no model) lines of utils/wind/breshen.c with the search of calc_wind.c |
| HorizonTerrain | (no model) the search of utils/wind/calc_wind.c under a change of the terrain |
| Fresher | (no model) distribute/precipitation.py, envphys/storms.py, two runs side by side |
| Warmer | (no model) as Fresher, with distribute/vapor_pressure.py |
| StormStep | (no model) the steps of the storms of envphys/storms.py |
| SolarResponse | (no model) the net radiation of distribute/solar.py in two runs |
| ThermalResponse | (no model) the thermal radiation of distribute/thermal.py in two runs |
| Influence | (no model) the effect of one reading on the images of spatial/idw.py and spatial/dk/dk.py |
| Shelter, Gauge | (no model) two runs of envphys/precip.py compared |
| Moister | (no model) two runs of distribute/vapor_pressure.py compared |
| WetMore | (no model) two calls of envphys/core/iwbt.c compared |
| Bounce | (no model) two calls of envphys/solar/twostream.py over different ground |
| Denser | (no model) two calls of envphys/snow.py and nasde_model/*.py in different air |
| MarksWarm | (no model) two calls of envphys/core/topotherm.c in different air |
| Steady | (no model) two calls of spatial/idw.py, dk/dk.py with different readings |
| Gap | (no model) two calls of spatial/idw.py, one with a reading missing |
| SolarError | (no model) two calls of the corrections and the net of distribute/solar.py |
| PhaseError | (no model) two calls of envphys/snow.py |
| ThermalError | (no model) two calls of distribute/thermal.py |
| UnderError | (no model) two calls of `adjust_for_undercatch` |
| AgeError | (no model) two calls of envphys/albedo.py and distribute/albedo.py |
| WindError | (no model) two calls of the station and cell relations of winstral.py |
| DriftError | (no model) two calls of the cell of `dist_precip_wind` |
| DewError | (no model) two runs of dewpt.c |
| ReadingDew | (no model) distribution, limits and dewpt.c composed |
| ViewError | (no model) two runs of the thermal step |
| MoistError | (no model) two runs of the thermal step |
| DewSkyError | (no model) two runs of the thermal step |
| HeatError | (no model) two runs of the thermal step |
| BudgetError | (no model) a path of runs of the thermal step |
| Topo, Grid, Csv | data/load_topo.py, data/wrf.py, data/hrrr_grib.py, data/csv.py, data/input_data.py |

## Axioms

Written by `tools/axioms.py` from `#print axioms`; names without the prefix `Verif.`.

**`propext`** (24 theorems): Network.C10_same_arguments_partial, Network.C10_outputs_fails, Output.C13_rounding_fails, Output.C14_value_unchanged, Utils.C16_in_range_unchanged, Utils.C16_out_of_range, Utils.C16_nan, Utils.C16_crossed, Utils.C22_default_all_partial, Utils.C22_list_ignored_fails, Storms.C23_count, Topo.C70_fails, Hru.C75_frequency_fails, Setup.C116_times_fails, Wrap.C120_size_fails, MaxusLib.C131_flag_fails, StationEnh.C133_numbers_fails, Start.C143_several_fails, Start.C143_missing_fails, Start.C143_empty, Start.C143_argument, Start.C143_can_run, Start.C143_fails, Start.C143_both_fails.

**none** (4 theorems): Queue.C04_get_nonblock_fails, Queue.C04_put_nonblock_fails, Queue.C05_local_fails, Queue.C05_honoured_fails.

**`propext`, `Quot.sound`** (70 theorems): Queue.C01_get_returns_last_put, Queue.C02_bounded, Queue.C03_frame, Queue.C04_blocking_partial, Queue.C05_timeout_partial, Network.C09_frequency_fails, Network.C09_solar_flags_fails, Network.C09_winstral_rescaling_fails, Network.C09_fails, Network.C10_same_outputs_partial, Output.C12_fails, Output.C13_records_stay_partial, Output.C13_crash_restart_partial, Output.C14_none_is_zero, Output.C14_mask_partial, Output.C14_shape, Output.C14_nan_fails, Output.C14_fails, Output.C15_each_once, Output.C15_entry, Output.C15_unknown_ignored, Utils.C16_shape, Utils.C16_within, Utils.C16_idempotent, Utils.C16_monotone, Calendar.C19_starts, Utils.C20_groups_sound, Utils.C20_groups_complete, Utils.C20_positions_once, Utils.C22_repaired_partial, Storms.C23_timestamps, Storms.C26_image_test, Topo.C70_partial, Topo.C71_missing, Hru.C75_date, Csv.C76_metadata, Hru.C96_row, Csv.C97_single, Csv.C97_wind, Csv.C97_run, Csv.C97_metadata, NcInput.C105_length, NcInput.C105_night_fails, NinjaDir.C113_centre_fails, Setup.C115_defined, Setup.C116_missing_fails, MaxusMem.C119_limit, Wrap.C120_refused, Wrap.C120_fails, Items.C121_distribution, Items.C121_rescale_fails, Items.C121_rescale_partial, Items.C121_wind_gridded_fails, Items.C121_ninja_csv_fails, Items.C121_dates_fails, Items.C121_full_fails, MaxusLib.C131_directory, MaxusLib.C131_root, MaxusLib.C131_bare_fails, StationEnh.C133_case, StationEnh.C133_loaded, StationEnh.C133_abort_fails, Crash.C136_serial, Causal.C137_cloud_steps, Causal.C137_wrf_precip, Causal.C137_storms, Start.C143_future, Start.C143_written, Start.C143_refused_fails, Split.C157_storms_partial.

**`propext`, `Classical.choice`, `Quot.sound`** (987 theorems): Queue.C04_nonblock_partial, Pipeline.C06_deterministic, Pipeline.C06_finished_agree, Pipeline.C06_agrees_with_serial, Pipeline.C06_serial_is_published, Pipeline.C07_never_waits_for_removed, Pipeline.C07_all_reads_done, Pipeline.C08_no_deadlock, Pipeline.C08_bounded_length, Pipeline.C08_terminates, Network.C09_completes_partial, Network.C09_bounded_partial, Network.C10_threaded_equals_serial_partial, Network.C10_wind_argument_fails, Network.C11_capacity_one_partial, Network.C11_fails, Output.C12_multiples_partial, Output.C12_same_steps, Output.C12_in_order, Output.C12_last_step_fails, Output.C13_latest_record_partial, Output.C13_fails, Output.C15_exactly_requested_known, Output.C15_files_distinct, Calendar.C17_water_year, Calendar.C17_october_first, Calendar.C17_elapsed, Calendar.C17_monotone, Calendar.C17_range, Calendar.C18_month_lengths, Calendar.C18_domain, Calendar.C18_first_day, Calendar.C18_next_day, Calendar.C18_range, Calendar.C18_strictly_increasing, Calendar.C18_bijective, Calendar.C19_complete, Calendar.C19_regular, Calendar.C19_length, Utils.C20_none_iff, Utils.C21_weights_sum, Utils.C21_affine_exact, Utils.C21_bounded, Utils.C21_outside_fill, Utils.C21_inside_value, Utils.C22_fails, Storms.C23_ordered_disjoint, Storms.C23_cover, Storms.C23_mass, Storms.C23_none_iff, Storms.C24_same_storm_iff, Storms.C24_end, Storms.C25_outside_zero, Storms.C25_unselected_nan, Storms.C25_total_iff, Storms.C25_proportional, Storms.C25_total_fails, Storms.C25_conserved_partial, Storms.C26_ordered_disjoint, Storms.C26_cover, Storms.C26_same_storm_iff, Storms.C27_step_partial, Storms.C27_snowing_cell_partial, Storms.C27_other_cell_partial, Storms.C27_no_snow, Storms.C27_counts_steps, Storms.C27_sticky_fails, Storms.C27_time_step_fails, Storms.C27_accumulation_fails, Storms.C28_no_storm, Storms.C28_since_last_storm, Storms.C28_nonneg, Storms.C28_local, Nasde.C29_one_class, Nasde.C29_documented, Nasde.C29_dry, Nasde.C29_range, Nasde.C29_monotone, Nasde.C29_nan, Nasde.C30_ends, Nasde.C30_antitone, Nasde.C30_range, Nasde.C30_no_jumps, Nasde.C30_tmax_needed, Nasde.C31_temperatures, Nasde.C31_bounds_partial, Nasde.C31_monotone, Nasde.C31_no_check_fails, Nasde.C31_dry_cells_fails, Nasde.C31_fails, Nasde.C32_swe, Nasde.C32_density_partial, Nasde.C32_no_snow, Nasde.C32_mixture_bound, Nasde.C32_shared_array_fails, Nasde.C32_fails, Precip.C33_unknown_rejected, Precip.C33_ratio_positive, Precip.C33_ratio_antitone, Precip.C33_increase_partial, Precip.C33_calm_fails, Precip.C33_fails, Precip.C33_documented, Precip.C33_missing_unchanged, Precip.C33_all_stations, Precip.C34_warm_unchanged, Precip.C34_drift_bounds, Precip.C34_drift_shape, Precip.C34_scour_bounds, Precip.C34_nonneg, Precip.C34_assigned, Precip.C34_nan_fails, Precip.C34_local, Precip.C34_cubic_offset, Precip.C34_cubic_fails, Precip.C35_refreshed_partial, Precip.C35_dry_step_partial, Precip.C35_wet_step_partial, Precip.C35_stale_fails, Precip.C35_fails, Albedo.C36_declines, Albedo.C36_physical, Albedo.C36_sun_raises, Albedo.C36_published_in_limits, Albedo.C36_own_dictionary, Albedo.C37_checks_partial, Albedo.C37_dirt_fails, Albedo.C37_fails, Albedo.C38_value_partial, Albedo.C38_shape, Albedo.C38_before, Albedo.C38_monotone_partial, Albedo.C38_zero_class_fails, Albedo.C38_fails, Albedo.C39_weighted_mean, Albedo.C39_toward_litter, Albedo.C39_limit, Vapor.C40_below_air_temp, Vapor.C40_nan, Vapor.C40_precip_temp, Vapor.C41_positive, Vapor.C41_ice_increasing, Vapor.C41_water_increasing, Vapor.C41_increasing, Vapor.C41_rejected_partial, Vapor.C41_zero_kelvin_fails, Vapor.C42_conversion_partial, Vapor.C42_order_partial, Vapor.C42_dry_first_fails, Vapor.C42_saturated_first_fails, Vapor.C42_fails, Dewpoint.C43_converges, Dewpoint.C43_found, Dewpoint.C43_dew_point_partial, Dewpoint.C43_range_partial, Dewpoint.C43_better_end, Dewpoint.C43_interpolation, Dewpoint.C43_bracket_kept, Dewpoint.C43_returns_at_bracket, Dewpoint.C43_zerobr, Dewpoint.C43_lower_found, Dewpoint.C43_bracket_found_partial, Dewpoint.C43_solution_partial, Dewpoint.C43_early_fails, Dewpoint.C43_fails, Dewpoint.C43_zero_never_ends_fails, WetBulb.C44_returns_partial, WetBulb.C44_at_most_ten, WetBulb.C44_converged_partial, WetBulb.C44_upward_fails, WetBulb.C44_fails, WetBulb.C44_saturated, WetBulb.C44_first_round_partial, WetBulb.C44_latent, WetBulb.C44_large_tolerance, Solar.C45_nonneg_partial, Solar.C45_net_partial, Solar.C45_fails, Solar.C45_step_fails, Solar.C45_stages, Solar.C45_terrain, Solar.C46_night, Solar.C46_night_run, Solar.C46_day_partial, Solar.C46_correction_off_fails, Solar.C46_fails, Solar.C47_total, Solar.C47_monotone, Solar.C47_diffuse, Solar.C48_beam_contraction, Solar.C48_beam_decreasing, Solar.C48_unchanged, Solar.C48_diffuse, Solar.C48_veg_correct, Twostream.C49_gammas, Twostream.C49_no_value_error, Twostream.C49_exponent_positive, Twostream.C49_direct_range, Twostream.C49_direct_decreasing, Twostream.C49_irradiance, Thermal.C50_canopy_low, Thermal.C50_canopy_between, Thermal.C50_terrain_between, Thermal.C50_step, Thermal.C51_unsworth_crawford, Thermal.C51_above_black_body_fails, Thermal.C51_garen_partial, Thermal.C51_garen_fails, Thermal.C51_kimball_partial, Thermal.C51_kimball_constant_fails, Thermal.C51_kimball_clear_fails, Thermal.C51_kimball_reduces_fails, Thermal.C51_fails, Thermal.C52_celsius_partial, Thermal.C52_terrain_fails, Thermal.C52_fails, Idw.C53_defined, Idw.C53_formula_partial, Idw.C53_between_partial, Idw.C53_constant_partial, Idw.C53_ignores_missing, Idw.C53_order_partial, Idw.C53_affine_partial, Idw.C53_own_location_fails, Idw.C53_fails, Idw.C54_trend_sign, Idw.C54_no_trend_plain, Idw.C54_affine_exact, Idw.C54_affine_exact_kriging, Idw.C54_kriging_constant, Idw.C54_kriging_between, Krige.C55_cache, Krige.C56_terminates, Krige.C56_equations, Krige.C56_sum, Krige.C56_nonneg_partial, Krige.C56_order, Krige.C56_regular, Krige.C56_own_cell, Krige.C56_colocated_fails, Krige.C56_negative_fails, Krige.C56_fails, Krige.C56_distinct_partial, Krige.C56_exact_at_station, Lu.C57_singular, Lu.C57_solves_partial, Lu.C57_determined_partial, Lu.C57_negative_fails, Lu.C57_fails, Wind.C58_range, Wind.C58_components, Wind.C58_roundtrip, Wind.C58_between, Wind.C59_nearest, Wind.C59_lookup, Wind.C59_station_partial, Wind.C59_station_fails, Wind.C60_documented_partial, Wind.C60_positive_partial, Wind.C60_gaps_fails, Wind.C60_fails, Wind.C60_limits, Wind.C61_own_partial, Wind.C61_order_fails, Wind.C61_slope, Wind.C61_fails, Bres.C62_walk, Bres.C62_line_partial, Bres.C62_reaches_partial, Bres.C62_cut_fails, Bres.C62_fails, Bres.C63_line_partial, Bres.C63_empty_fails, Bres.C63_fails, Horizon.C64_attained, Horizon.C64_bound_partial, Horizon.C64_exact_partial, Horizon.C64_python_partial, Horizon.C64_height_fails, Horizon.C64_bent_fails, Horizon.C64_fails, Horizon.C64_python_fails, Horizon.C64_row_partial, Tbreak.C64_ray_partial, Window.C65_sound, Window.C65_window_partial, Window.C65_north_fails, Window.C65_fails, Window.C65_misaligned_fails, Window.C65_mean_partial, Window.C65_nan_fails, Ninja.C66_scale, Ninja.C66_roughness, Ninja.C66_interpolate, Ninja.C66_same_partial, Ninja.C66_edge_fails, Ninja.C66_fails, Sun.C67_cosine, Sun.C67_digits, Sun.C67_position, Sun.C68_partial, Sun.C68_fails, Sun.C68_beyond_pole, Sun.C69_unique, Sun.C69_contract, Sun.C69_terminates, Sun.C69_accuracy, Sun.C69_zero, Sun.C69_every_date, Topo.C70_stale, Topo.C71_nearest, Topo.C71_half_cell, Grid.C72_consecutive, Grid.C72_sum, Grid.C72_nonneg, Grid.C73_partial, Grid.C73_fails, Grid.C73_diagonal, Grid.C73_mirror, Grid.C74_day, Grid.C74_night, Grid.C74_carry, Grid.C74_range, Grid.C74_latest, Grid.C74_first_night, Grid.C74_steps_range, Grid.C74_fails, Hru.C75_file, Hru.C75_partial, Hru.C75_values, Hru.C75_fails, Hru.C75_prms, Hru.C75_prms_fails, Csv.C76_selection, Csv.C76_empty, Csv.C76_all, Csv.C76_unchecked, Beta.C77_default, Twostream.C77_physical_partial, Twostream.C77_resonance_fails, Twostream.C77_no_backscatter_fails, Twostream.C77_diffuse_fails, Twostream.C77_fails, Thermal.C78_marks, Thermal.C78_marks_dew, Thermal.C78_prata, Thermal.C78_angstrom, Thermal.C78_angstrom_shape, Thermal.C78_prata_shape, Thermal.C78_dilley_shape, Thermal.C78_step_partial, Thermal.C78_dilley_fails, Thermal.C78_fails, Thermal.C79_agree, Thermal.C79_bad, Thermal.C79_zero_kelvin_fails, Thermal.C80_options_partial, Thermal.C80_published, Thermal.C80_no_terrain_fails, Thermal.C80_fails, Nasde.C81_known, Nasde.C81_fraction, Nasde.C81_density, Wind.C82_within_class_partial, Wind.C82_boundary_fails, Wind.C83_inverse_partial, Wind.C83_steep_fails, Wind.C84_vegetation, Bres.C85_profile, Horizon.C86_own_horizon_partial, Horizon.C86_ground_fails, Horizon.C86_kept, Window.C87_far_end, Window.C87_rows_north_fails, Ninja.C88_complete, Ninja.C88_succeeds, Ninja.C88_plane, Ninja.C88_right_edge_fails, Ninja.C89_limited, Sun.C90_hour_angle, Sun.C90_defined, Sun.C91_position, Sun.C91_ellipse, Sun.C92_equatorial, Sun.C92_autumn_equinox, Sun.C93_partial, Sun.C93_fails, Sun.C93_after_2100, Sun.C93_before_1898, Sun.C94_sun_vector_partial, Sun.C94_place, Topo.C95_dx, Topo.C95_even, Topo.C95_center, Hru.C96_mean, Hru.C96_between, Hru.C96_units, Csv.C97_values, Csv.C97_partial, Csv.C97_fails, GridInterp.C98_mask_value, GridInterp.C98_mask_affine, GridInterp.C98_mask_rejected, GridInterp.C98_mask_pixel, GridInterp.C98_neighbours, GridInterp.C98_local_partial, GridInterp.C98_local_place_partial, GridInterp.C98_local_affine_partial, GridInterp.C98_nearest_fails, GridInterp.C98_fails, GridInterp.C98_same_place_fails, GridInterp.C99_no_data, GridInterp.C99_partial, GridInterp.C99_rejected_plain, GridInterp.C99_kriging_fails, GridInterp.C99_dk_fails, GridInterp.C99_fails, Atmos.C100_reference, Atmos.C100_falls, Atmos.C100_ratio, Atmos.C100_beam, Atmos.C101_partial, Atmos.C101_below_fails, Atmos.C101_fails, Atmos.C101_cosine_partial, Atmos.C101_cosine_fails, Atmos.C101_cosine_gap_fails, Atmos.C101_no_beam, Atmos.C102_day, Atmos.C102_two, Atmos.C102_inverse_square, Atmos.C102_defined, NcInput.C103_vectors, NcInput.C103_grids, NcInput.C103_shape, NcInput.C103_flattened, NcInput.C103_mixed, NcInput.C103_names, NcInput.C104_partial, NcInput.C104_collapse_fails, NcInput.C104_fails, NcInput.C104_wrf_partial, NcInput.C104_wrf_fails, NcInput.C105_partial, NcInput.C105_serial, NcInput.C105_dusk_fails, NcInput.C105_fails, WindFill.C106_partial, WindFill.C106_rejected, WindFill.C106_others, WindFill.C106_order_fails, WindFill.C106_single_fails, WindFill.C106_fails, WindFill.C107_succeeds, WindFill.C107_filled, WindFill.C107_partial, WindFill.C107_row_fails, WindFill.C107_fails, ConfigVeg.C108_wind, ConfigVeg.C108_albedo, ConfigVeg.C108_date, ConfigVeg.C108_hardy, ConfigVeg.C108_both_tables, ConfigVeg.C108_precip_partial, ConfigVeg.C108_precip_fails, ConfigVeg.C108_fails, Restart.C109_partial, Restart.C109_fresh, Restart.C109_stopped_fails, Restart.C109_frequency_fails, Restart.C109_susong_fails, Restart.C109_fails, StormRun.C110_search, StormRun.C110_runs, StormRun.C110_partial, StormRun.C110_warm_fails, StormRun.C110_fails, StormRun.C110_mass_fails, Omp.C111_loop, Omp.C111_progress, Omp.C111_ends, Omp.C111_complete, Omp.C111_deterministic, Omp.C111_topotherm, Omp.C111_iwbt, Omp.C111_dewpt, Omp.C111_maxus, Omp.C111_krige, NinjaDir.C112_with_speed, NinjaDir.C112_range, NinjaDir.C112_inside_partial, NinjaDir.C112_constant, NinjaDir.C112_extrapolated_fails, NinjaDir.C112_fails, NinjaDir.C113_partial, NinjaDir.C113_short_fails, NinjaDir.C114_same_file, NinjaDir.C114_name, NinjaDir.C114_kinds, NinjaDir.C114_partial, NinjaDir.C114_summer_time_fails, Setup.C115_partial, Setup.C115_tight, Setup.C115_turned_fails, Setup.C116_metadata_fails, Setup.C116_tables_partial, Setup.C116_fails, Setup.C117_chosen, Setup.C117_partial, Setup.C117_fails, KrigeMem.C118_defined_partial, KrigeMem.C118_written_partial, KrigeMem.C118_freed_partial, KrigeMem.C118_same_partial, KrigeMem.C118_sum_partial, KrigeMem.C118_overflow_fails, KrigeMem.C118_fails, KrigeMem.C118_no_station_fails, KrigeMem.C118_solver_fails, MaxusMem.C119_defined, MaxusMem.C119_same, MaxusMem.C119_call, Wrap.C120_topotherm_partial, Wrap.C120_dewpoint_partial, Wrap.C120_wetbulb_partial, Wrap.C120_shape_fails, Items.C121_precip_partial, Items.C121_wind_partial, Items.C121_albedo_partial, Items.C121_thermal, Tbreak.C122_formula_partial, Tbreak.C122_edge, Tbreak.C122_height_partial, Tbreak.C122_drift_fails, Tbreak.C122_cardinal, Tbreak.C122_cells, Tbreak.C122_guard, Tbreak.C122_guard_rows_fails, Tbreak.C122_fails, Zone.C123_localize, Zone.C123_rows, Zone.C123_steps, Zone.C123_record, Zone.C123_records_partial, Zone.C123_autumn_fails, Zone.C123_decay_partial, Zone.C123_decay_shift_fails, Zone.C123_water_day_partial, Zone.C123_water_day_shift_fails, Zone.C123_water_days_partial, Zone.C123_names, Zone.C123_names_fails, Zone.C123_fails, Spectrum.C124_points, Spectrum.C124_continuous, Spectrum.C124_derivative, Spectrum.C124_sum, Spectrum.C124_positive_partial, Spectrum.C124_bands, Spectrum.C124_dates, Spectrum.C124_defined, Spectrum.C124_negative_fails, Spectrum.C124_constant_fails, Spectrum.C124_fails, Run.C125_in_range, Run.C125_no_abort_partial, Run.C125_radiation_partial, Run.C125_defaults_partial, Run.C125_precip_max_fails, Run.C125_fails, Run.C125_albedo_night_fails, Stamp.C126_rounding, Stamp.C126_apart, Stamp.C126_order, Stamp.C126_exact, Stamp.C126_records, Stamp.C126_decode, Stamp.C126_restart_partial, Stamp.C126_restart_fails, Stamp.C126_double_fails, Stamp.C126_collision_fails, Stamp.C126_fails, Run.C127_linked, Run.C127_dew_partial, Run.C127_wet_partial, Run.C127_dry_spell, Run.C127_phase, Sessions.C128_header, Sessions.C128_latest, Sessions.C128_sorted, Sessions.C128_read_partial, Sessions.C128_zone_fails, Sessions.C128_grid_fails, Sessions.C128_shape_fails, Sessions.C128_fails, Run.C129_files, Run.C129_abort, Run.C129_in_range, Feed.C130_serial, Feed.C130_threaded_partial, Feed.C130_hang_fails, Feed.C130_duplicate_fails, Feed.C130_fails, MaxusLib.C131_complete, MaxusLib.C131_lookup_partial, MaxusLib.C131_windowed_partial, MaxusLib.C131_increment_fails, MaxusLib.C131_interrupted_fails, MaxusLib.C131_names, MaxusLib.C131_window_name, MaxusLib.C131_fails, Threaded.C132_images_partial, Threaded.C132_files_partial, Threaded.C132_completes_partial, Threaded.C132_records_partial, Threaded.C132_frequency_fails, Threaded.C132_corrections_fails, Threaded.C132_fails, StationEnh.C133_asked_partial, StationEnh.C133_flat_partial, StationEnh.C133_option_fails, StationEnh.C133_again_fails, StationEnh.C133_fails, Wrf.C134_partial, Wrf.C134_refused, Wrf.C134_timed_fails, Wrf.C134_long_fails, Wrf.C134_twice_fails, Wrf.C134_cloud, Wrf.C134_fails, OutAsked.C135_netcdf_partial, OutAsked.C135_defaults, OutAsked.C135_all_fails, OutAsked.C135_hru_fails, OutAsked.C135_type, OutAsked.C135_fails, Crash.C136_hang_fails, Crash.C136_missing, Crash.C136_stops_near, Crash.C136_values, Crash.C136_bounded, Crash.C136_settles, Crash.C136_before, Crash.C136_timeout_progress, Crash.C136_timeout_ends, Crash.C136_silent_fails, Crash.C136_fails, Crash.C136_slow_fails, Crash.C136_network_hang_fails, Crash.C136_network_output, Crash.C136_network_before, Crash.C136_network_timeout, Causal.C137_prefix, Causal.C137_steps, Causal.C137_files, Causal.C137_threaded, Causal.C137_cloud_day, Causal.C137_cloud_night, Causal.C137_cloud_fails, Causal.C137_clip, Causal.C137_factor_partial, Causal.C137_nodrizzle_partial, Causal.C137_drizzle_fails, Causal.C137_fails, Crop.C138_run_partial, Crop.C138_air, Crop.C138_renumber, Crop.C138_precip, Crop.C138_storm_fails, Crop.C138_percent_fails, Crop.C138_sun_fails, Crop.C138_fails, Order.C139_idw, Order.C139_detrended_partial, Order.C139_weights_partial, Order.C139_kriging_partial, Order.C139_tie_fails, Order.C139_fails, Order.C139_wind_partial, Order.C139_pixel_fails, Frame.C140_idw, Frame.C140_detrended_map, Frame.C140_detrended_partial, Frame.C140_kriging_map, Frame.C140_kriging_partial, Frame.C140_sea_fails, Frame.C140_fails, Frame.C140_data_partial, Pykrige.C141_image_partial, Pykrige.C141_run_partial, Pykrige.C141_no_data, Pykrige.C141_affine, Pykrige.C141_gaps, Pykrige.C141_coordinates_fails, Pykrige.C141_fails, Beta.C142_recurrence, Beta.C142_unique, Beta.C142_sum, Beta.C142_isotropic, Beta.C142_error, Beta.C142_succeeds, Beta.C142_valid, Beta.C142_accident_fails, Beta.C142_fails, Beta.C142_silent_fails, Start.C143_constructor, Start.C143_carried_out, Start.C143_status_partial, IdwFloat.C144_cell, IdwFloat.C144_range, IdwFloat.C144_order, IdwFloat.C144_trend, IdwFloat.C144_nearest, IdwFloat.C144_double, IdwFloat.C144_fails, Hrrr.C145_same_partial, Hrrr.C145_label, Hrrr.C145_shape, Hrrr.C145_time, Hrrr.C145_fails, Hrrr.C145_direction_fails, TwoEq.C146_table, TwoEq.C146_solution, TwoEq.C146_inside, TwoEq.C146_energy, TwoEq.C146_default, TwoEq.C146_thick, Krige.C147_error, Krige.C147_used_partial, Krige.C147_best, Krige.C147_all, Krige.C147_exists, Krige.C147_estimate_partial, Krige.C147_fails, Krige.C148_line_partial, Krige.C148_slope, Krige.C148_only, Krige.C148_fails, Krige.C148_near_fails, ClockFloat.C149_running, ClockFloat.C149_since, ClockFloat.C149_ticks, ClockFloat.C149_exact, ClockFloat.C149_double, ClockFloat.C149_day, Unread.C150_uniform_partial, Unread.C150_effect_partial, Unread.C150_fails, Unread.C150_albedo_partial, Unread.C150_albedo_fails, Unread.C150_albedo_full_fails, ClipFloat.C151_outside, ClipFloat.C151_unselected, ClipFloat.C151_cell, ClipFloat.C151_total, ClipFloat.C151_double, LuFloat.C152_backward_partial, LuFloat.C152_none, LuFloat.C152_residual_partial, LuFloat.C152_forward_partial, LuFloat.C152_exact, LuFloat.C152_double, LuFloat.C152_fails, KrigeFloat.C153_terminates, KrigeFloat.C153_nonneg_partial, KrigeFloat.C153_equations, KrigeFloat.C153_sum, KrigeFloat.C153_range, KrigeFloat.C153_exit, KrigeFloat.C153_double, KrigeFloat.C153_negative_fails, KrigeFloat.C153_fails, RestartFloat.C154_double_partial, RestartFloat.C154_forgets, RestartFloat.C154_drift_bound, RestartFloat.C154_year, RestartFloat.C154_drift_fails, RestartFloat.C154_after_storm_fails, RestartFloat.C154_fails, CoordFloat.C155_exact_partial, CoordFloat.C155_near, CoordFloat.C155_order, CoordFloat.C155_collapse_fails, CoordFloat.C155_fails, DiskFloat.C156_monotone, DiskFloat.C156_files, DiskFloat.C156_limits_partial, DiskFloat.C156_double, DiskFloat.C156_default, DiskFloat.C156_near, DiskFloat.C156_dew, DiskFloat.C156_calm_fails, DiskFloat.C156_fails, Split.C157_split_partial, Split.C157_over_partial, Split.C157_total, Split.C157_fails, Split.C157_clip_partial, Split.C157_table_partial, Split.C157_cut_fails, Split.C157_drizzle_fails, Reread.C158_clock, Reread.C158_lost, Reread.C158_mask_fails, Reread.C158_restart_partial, Reread.C158_fails, DewFloat.C159_error, DewFloat.C159_monotone, DewFloat.C159_file, DewFloat.C159_below, DewFloat.C159_solved_partial, DewFloat.C159_table_partial, DewFloat.C159_share, DewFloat.C159_fails, Logs.C160_lines, Logs.C160_first_partial, Logs.C160_silent, Logs.C160_append, Logs.C160_setup, Logs.C160_fails, KrigeCell.C161_cell, KrigeCell.C161_linear, KrigeCell.C161_order, KrigeCell.C161_range_partial, KrigeCell.C161_double_partial, KrigeCell.C161_fails, SunDigits.C162_order, SunDigits.C162_cosine, SunDigits.C162_digits, SunDigits.C162_azimuth, SunDigits.C162_radius, SunDigits.C162_day, SunDigits.C162_fails, SunDigits.C162_day_partial, SunDigits.C162_again, SunDigits.C162_sunang, TwoFloat.C163_order_partial, TwoFloat.C163_value_partial, TwoFloat.C163_double_partial, TwoFloat.C163_exact, TwoFloat.C163_fails, HorizonFloat.C164_exact, HorizonFloat.C164_bound_partial, HorizonFloat.C164_double_partial, HorizonFloat.C164_fails, HorizonBent.C165_profile, HorizonBent.C165_line, HorizonBent.C165_square, HorizonBent.C165_sharp, HorizonBent.C166_straight_partial, HorizonBent.C166_line_partial, HorizonBent.C166_fails, HorizonBent.C166_datum, HorizonBent.C166_scale, Fresher.C167_marks, Fresher.C167_albedo, Fresher.C167_susong_partial, Fresher.C167_trace_fails, Fresher.C167_fails, Fresher.C167_overwrite_fails, Fresher.C167_clip_fails, Fresher.C168_marks, Fresher.C168_share, Fresher.C168_dew, Fresher.C168_image, Fresher.C168_susong_partial, Fresher.C168_rain_fails, Fresher.C168_fails, Storms.C169_station, Storms.C169_grows, Storms.C169_causal, Storms.C169_basin, Storms.C169_basin_grows, Solar.C170_surface, Solar.C170_cloud_partial, Solar.C170_excess, Solar.C170_cloudy_fails, Solar.C170_fails, Thermal.C171_moist_partial, Thermal.C171_hot_partial, Thermal.C171_cloud_partial, Thermal.C171_kimball_fails, Thermal.C171_terrain_fails, Thermal.C171_dilley_fails, Thermal.C171_fails, Idw.C172_plain_partial, Idw.C172_influence, Idw.C172_idw, Idw.C172_trend_partial, Idw.C172_extrapolated_fails, Idw.C172_fails, Precip.C173_cell, Precip.C173_image_partial, Precip.C173_floor, Precip.C173_limits_fails, Precip.C173_fails, Precip.C174_windier, Precip.C174_shield, Precip.C174_colder_partial, Precip.C174_light_fails, Precip.C174_fails, Precip.C174_unknown_temp, Run.C175_dew_partial, Run.C175_drop, Run.C175_clip_fails, Run.C175_snow_fails, Run.C175_fails, WetBulb.C176_response, WetBulb.C176_solution, WetBulb.C176_elevation, TwoEq.C177_bounces, TwoEq.C177_ground_partial, TwoEq.C177_weak_fails, TwoEq.C177_fails, TwoEq.C177_image, Nasde.C178_warmer_partial, Nasde.C178_amount, Nasde.C178_heavy_fails, Nasde.C178_fails, Thermal.C179_hot_partial, Thermal.C179_jump_fails, Thermal.C179_fails, Idw.C180_plain_partial, Idw.C180_trend, Idw.C180_idw_partial, Idw.C180_sharp, Idw.C180_amplified_fails, Idw.C180_fails, Idw.C181_share_partial, Idw.C181_range_partial, Idw.C181_trend_fails, Idw.C181_fails, Solar.C182_cloud_partial, Solar.C182_albedo, Solar.C182_step, Solar.C182_jump_fails, Solar.C182_fails, Nasde.C183_fraction_partial, Nasde.C183_density_partial, Nasde.C183_piecewise, Nasde.C183_table_fails, Nasde.C183_marks_fails, Nasde.C183_fails, Thermal.C184_cloud, Thermal.C184_black, Thermal.C184_sharp, Thermal.C184_canopy, Precip.C185_wind_partial, Precip.C185_reading, Precip.C185_phase_fails, Precip.C185_fails, Albedo.C186_age, Albedo.C186_sun_partial, Albedo.C186_horizon_fails, Albedo.C186_published, Albedo.C186_litter, Albedo.C186_fails, Wind.C187_slope_partial, Wind.C187_flat, Wind.C187_station, Wind.C187_reading, Wind.C187_gap_fails, Wind.C187_level_fails, Wind.C187_fails, Precip.C188_precip, Precip.C188_wind_partial, Precip.C188_slope, Precip.C188_temperature_fails, Precip.C188_shelter_fails, Precip.C188_fails, Dewpoint.C189_dew_point, Dewpoint.C189_limited, Dewpoint.C189_cold, ReadingDew.C190_plain, ReadingDew.C190_trend, Thermal.C191_exact, Thermal.C191_view, Thermal.C191_unused, Thermal.C191_marks, Thermal.C192_vapor_partial, Thermal.C192_dry_fails, Thermal.C192_fails, Thermal.C193_dew, Thermal.C193_one_side, Thermal.C193_unused, Thermal.C194_temperature, Thermal.C195_weather.
