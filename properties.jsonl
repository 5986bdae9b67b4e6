{"id": "C01", "title": "Daily 366-day layout round-trips", "statement": "Converting a daily series of whole calendar years to the 366-day-per-year layout with transform_to_366day and back with transform_to_gregorian returns exactly the original series, value for value, including missing values.", "quantifier": "every value type and every series content; every start year and number of years for which the dates exist; series length equal to the calendar days of those years", "why_tests_cant": "Leap/non-leap patterns and lengths are unbounded; tests check two fixture arrays.", "anchors": ["src/climate_indices/utils.py: transform_to_366day, transform_to_gregorian"]}
{"id": "C02", "title": "366-day layout puts every day in its calendar slot", "statement": "For whole years, transform_to_366day returns years*366 values in which every real day keeps its value at its day-of-leap-year slot, and the only other slots are the Feb 29 slots of non-leap years, which hold the mean of that year's Feb 28 and Mar 1 values.", "quantifier": "every start year, number of years and series content", "why_tests_cant": "A statement about every slot of every year for all leap patterns.", "anchors": ["src/climate_indices/utils.py: transform_to_366day"]}
{"id": "C03", "title": "Announced 366-day length matches the converted length", "statement": "gregorian_length_as_366day(len(x), y) is the length of the array produced by transform_to_366day for the same data (the spi command line tool sizes its buffers with the first and fills them with the second).", "quantifier": "every daily series length and start year, including lengths that end part-way through a year", "why_tests_cant": "Needs all lengths and start years; the two functions are tested separately on single examples.", "anchors": ["src/climate_indices/utils.py: gregorian_length_as_366day, transform_to_366day", "src/climate_indices/__spi__.py: _compute_write_index"]}
{"id": "C04", "title": "Partial final year is kept and padded", "statement": "When the daily series ends part-way through its final year, transform_to_366day keeps all observed days in their calendar slots and fills the remaining days of the final year with missing values, whether or not the final year is a leap year.", "quantifier": "every number of leading whole years, every start year, every number of observed days in the final year", "why_tests_cant": "Both leap and non-leap final years, at all cut-off days; tests have one non-leap case.", "anchors": ["src/climate_indices/utils.py: transform_to_366day"]}
{"id": "C05", "title": "Month offsets are exact day counts", "statement": "compute_days returns, for time step i, the exact number of days from January 1 of the units start year to the first day of the i-th month after the initial month; consecutive entries differ by the length of the month between them, so the axis is strictly increasing.", "quantifier": "all initial years, initial months 1..12, lengths and unit start years for which the dates exist", "why_tests_cant": "Calendar arithmetic over an unbounded range of years and leap rules.", "anchors": ["src/climate_indices/utils.py: compute_days"]}
{"id": "C06", "title": "Reshaping to years loses nothing", "statement": "reshape_to_2d(values, k) places element i of a 1-D array at row i//k, column i%k, fills only the tail of the last row with missing values, leaves a 2-D array that already has k columns unchanged, and raises ValueError for every other shape; flattening and truncating to the original length restores the input.", "quantifier": "all array contents, lengths, shapes and positive column counts", "why_tests_cant": "Universal over lengths and shapes.", "anchors": ["src/climate_indices/utils.py: reshape_to_2d"]}
{"id": "C07", "title": "Sliding sums are exactly the documented windows", "statement": "sum_to_scale(values, n) has the same length as values; entry i is missing for i < n-1 and otherwise is the sum of the n values ending at i, which is missing as soon as one of those values is missing.", "quantifier": "all arrays and all scales, including scales larger than the array", "why_tests_cant": "All positions, lengths, scales, and missing-value patterns.", "anchors": ["src/climate_indices/compute.py: sum_to_scale"]}
{"id": "C08", "title": "Zero and non-missing counts are consistent", "statement": "count_zeros_and_non_missings returns the number of entries equal to zero and the number of non-missing entries; zeros <= non-missing <= size, and the counts do not depend on the order of the data.", "quantifier": "all arrays", "why_tests_cant": "Universal over contents and order.", "anchors": ["src/climate_indices/utils.py: count_zeros_and_non_missings"]}
{"id": "C09", "title": "SPI and SPEI are always within the valid range", "statement": "Whenever spi or spei computes an index for data that is not entirely missing, every returned value is either missing or between -3.09 and 3.09 inclusive, whatever the data, scale, distribution, calibration period, periodicity or supplied fitting parameters.", "quantifier": "all inputs, including infinite values and arbitrary fitting parameters", "why_tests_cant": "Range over every float input and parameter set, including pathological fits.", "anchors": ["src/climate_indices/indices.py: spi, spei"]}
{"id": "C10", "title": "SPI returns one value per input time step, or a ValueError", "statement": "spi on a 1-D or 2-D array returns a 1-D array of exactly the input size for every scale >= 1 (also larger than the record), returns an entirely missing input unchanged, and raises ValueError for arrays with another number of dimensions, for a non-positive scale, an unknown periodicity or an unknown distribution.", "quantifier": "all array shapes and contents, scales, periodicities, distributions", "why_tests_cant": "All shapes/scales, including records shorter than the scale.", "anchors": ["src/climate_indices/indices.py: spi"]}
{"id": "C11", "title": "Missing data stays local and is never invented", "statement": "In the SPI of a series, a time step is missing if the accumulation window ending there reaches before the start of the record or contains a missing value.", "quantifier": "all series with any pattern of missing values, all scales, both distributions", "why_tests_cant": "All missing-value patterns and positions.", "anchors": ["src/climate_indices/indices.py: spi", "src/climate_indices/compute.py: sum_to_scale, transform_fitted_gamma, transform_fitted_pearson"]}
{"id": "C12", "title": "Calendar steps are standardised independently", "statement": "The gamma or Pearson transform of a value depends only on the values of the same calendar month (or day) in the accumulated series: two inputs that agree on one calendar column give identical results on that column.", "quantifier": "all pairs of arrays agreeing on a calendar column; all other columns arbitrary", "why_tests_cant": "Non-interference: a relation between all pairs of executions.", "anchors": ["src/climate_indices/compute.py: transform_fitted_gamma, transform_fitted_pearson, gamma_parameters, pearson_parameters"]}
{"id": "C13", "title": "Only calibration years influence the fit", "statement": "The fitted parameters, and therefore the index of a given year's value, do not change when data outside the calibration years change.", "quantifier": "all pairs of arrays that agree on the calibration years", "why_tests_cant": "Non-interference over all pairs of inputs.", "anchors": ["src/climate_indices/compute.py: gamma_parameters, pearson_parameters, transform_fitted_gamma"]}
{"id": "C14", "title": "The calibration window is the requested years, or the whole record", "statement": "The fit uses exactly the years y of the record with calibration_start <= y <= calibration_end when the requested period lies within the record, and all years of the record otherwise.", "quantifier": "all record lengths, data start years and calibration start/end years", "why_tests_cant": "All integer relations between the four years, including degenerate ones.", "anchors": ["src/climate_indices/compute.py: adjust_calibration_years, gamma_parameters, pearson_parameters"]}
{"id": "C15", "title": "Wetter never scores lower", "statement": "Within one calendar step, if one accumulated value is at least as large as another (both non-missing and with defined index), then its SPI is at least as large.", "quantifier": "all data sets, both distributions, all pairs of years", "why_tests_cant": "Order preservation over all inputs.", "anchors": ["src/climate_indices/compute.py: transform_fitted_gamma, _pearson_fit", "src/climate_indices/indices.py: spi"]}
{"id": "C16", "title": "Dry periods get an index value", "statement": "A time step whose accumulated precipitation is zero (and not missing) receives a defined SPI value determined by the probability of zero, for both distributions, whenever the fit itself is defined.", "quantifier": "all data sets with zero accumulations", "why_tests_cant": "All zero patterns; the unit tests' fixtures contain almost no zeros.", "anchors": ["src/climate_indices/compute.py: transform_fitted_gamma, _pearson_fit"]}
{"id": "C17", "title": "Negative precipitation is clipped to zero", "statement": "spi, spei and pdsi treat every negative precipitation value as zero: the result equals the result for the same data with the negative values replaced by zero.", "quantifier": "all series, including those that also contain missing values", "why_tests_cant": "All mixes of negatives and missing values.", "anchors": ["src/climate_indices/indices.py: spi, spei", "src/climate_indices/compute.py: scale_values", "src/climate_indices/palmer.py: pdsi"]}
{"id": "C18", "title": "Precomputed fitting parameters reproduce the internal fit", "statement": "spi called with the parameters computed by gamma_parameters (or pearson_parameters) from the scaled values of the same series returns the same values as spi called without parameters. With given gamma shapes and scales for all calendar steps, every value is transformed with exactly the given parameters of its calendar step (C27 says the same for Pearson).", "quantifier": "all series, scales, calibration periods, both distributions", "why_tests_cant": "Equality of two computation paths over all inputs; this is what the save/load-parameters workflow relies on.", "anchors": ["src/climate_indices/indices.py: spi", "src/climate_indices/compute.py: scale_values, gamma_parameters, pearson_parameters", "src/climate_indices/__spi__.py: _apply_to_subarray_spi"]}
{"id": "C19", "title": "Index functions leave the caller's arrays unchanged", "statement": "After spi, scale_values + gamma_parameters, pet or eto_thornthwaite return, the array passed by the caller has the same contents as before, so calling again gives the same answer.", "quantifier": "all inputs and all sequences of calls on the same array", "why_tests_cant": "A frame property over all inputs and call histories.", "anchors": ["src/climate_indices/indices.py: spi, pet", "src/climate_indices/compute.py: scale_values, gamma_parameters, transform_fitted_gamma", "src/climate_indices/eto.py: eto_thornthwaite"]}
{"id": "C20", "title": "SPEI depends only on precipitation minus PET", "statement": "For non-negative precipitation, spei gives the same result for any two input pairs with the same element-wise difference precips - pet; arrays of different sizes raise ValueError; an entirely missing precipitation array is returned as is.", "quantifier": "all pairs of inputs with equal differences", "why_tests_cant": "Relational over all pairs of inputs.", "anchors": ["src/climate_indices/indices.py: spei"]}
{"id": "C21", "title": "Deprecated fitting keys mean the same as the new ones", "statement": "A fitting parameter dictionary with the old plural keys gives the same result as one with the new keys; if both are present the new key wins; normalising twice changes nothing.", "quantifier": "all dictionaries; both spi and spei", "why_tests_cant": "All combinations of present/absent/None keys.", "anchors": ["src/climate_indices/indices.py: _norm_fitdict, spei, spi"]}
{"id": "C22", "title": "SPI does not depend on the unit of precipitation", "statement": "Multiplying all precipitation values by the same positive constant leaves the gamma SPI unchanged (alpha unchanged, beta multiplied by the constant).", "quantifier": "all series and all positive constants (exact arithmetic)", "why_tests_cant": "Scaling invariance over all inputs and constants.", "anchors": ["src/climate_indices/indices.py: spi", "src/climate_indices/compute.py: gamma_parameters, transform_fitted_gamma"]}
{"id": "C23", "title": "Gamma parameters are valid and match the sample mean", "statement": "For every calendar step whose positive calibration values are not all equal, gamma_parameters returns alpha > 0 and beta > 0 with alpha*beta equal to the mean of those values; when they are all equal no finite alpha exists and the index for the step is missing.", "quantifier": "all samples of positive values (exact arithmetic)", "why_tests_cant": "An inequality (Jensen) over all real samples.", "anchors": ["src/climate_indices/compute.py: gamma_parameters"]}
{"id": "C24", "title": "L-moment fit fails exactly on degenerate samples", "statement": "For at least four non-missing values the sample L-scale is never negative and |L-skewness| <= 1; lmoments.fit raises ValueError exactly when all values but the largest, or all values but the smallest, coincide.", "quantifier": "all samples of at least four values (exact arithmetic)", "why_tests_cant": "Inequalities over all real samples of all sizes.", "anchors": ["src/climate_indices/lmoments.py: fit, _estimate_lmoments"]}
{"id": "C25", "title": "L-moment fit ignores order and follows changes of unit", "statement": "lmoments.fit does not depend on the order of the values or on interspersed missing values, and under x -> a*x + b with a > 0 maps loc to a*loc + b, scale to a*scale and keeps skew.", "quantifier": "all samples, permutations, a > 0 and b", "why_tests_cant": "Permutation and affine equivariance over all inputs.", "anchors": ["src/climate_indices/lmoments.py: fit, _estimate_lmoments, _estimate_pearson3_parameters"]}
{"id": "C26", "title": "Pearson fitting is total on ordinary precipitation data", "statement": "pearson_parameters returns finite parameters for every calendar step, using zeros when fewer than four non-zero values exist, and never raises because of the data values.", "quantifier": "all 2-D arrays of non-negative or missing values", "why_tests_cant": "Totality over all data.", "anchors": ["src/climate_indices/compute.py: pearson_parameters, calculate_time_step_params", "src/climate_indices/lmoments.py: fit"]}
{"id": "C27", "title": "Pearson parameters are all or nothing", "statement": "transform_fitted_pearson raises ValueError when some but not all of the four parameter arrays are given, computes them when none is given, and uses exactly the given ones when all are given.", "quantifier": "all 16 combinations of given/absent parameters, all data", "why_tests_cant": "All combinations times all data.", "anchors": ["src/climate_indices/compute.py: transform_fitted_pearson"]}
{"id": "C28", "title": "Percentage of normal is the ratio to the calibration mean", "statement": "percentage_of_normal returns, for each time step, the n-step sum divided by the mean over the calibration years of the sums of the same calendar step, missing when that mean is not positive; within the calibration years the ratios of each calendar step average to one; multiplying the data by a positive constant changes nothing.", "quantifier": "all series, scales, calibration periods, both periodicities", "why_tests_cant": "A defining equation at all positions for all inputs.", "anchors": ["src/climate_indices/indices.py: percentage_of_normal"]}
{"id": "C29", "title": "Percentage of normal rejects impossible calibration periods", "statement": "percentage_of_normal raises ValueError when the calibration period starts before the data, or spans more years than the data holds, or the scale is missing or below one, for monthly and daily data.", "quantifier": "all years, sizes, scales, periodicities", "why_tests_cant": "Decision logic over all integers.", "anchors": ["src/climate_indices/indices.py: percentage_of_normal"]}
{"id": "C30", "title": "Thornthwaite PET is defined, non-negative and aligned", "statement": "For a valid latitude and any temperature series that is not entirely missing, pet returns one value per input month, non-negative or missing, missing exactly where the temperature is missing, and zero for months at or below freezing.", "quantifier": "all temperature series of all lengths, all valid latitudes, all start years", "why_tests_cant": "All series including all-frozen and short ones.", "anchors": ["src/climate_indices/indices.py: pet", "src/climate_indices/eto.py: eto_thornthwaite"]}
{"id": "C31", "title": "Every documented latitude is accepted", "statement": "pet accepts every latitude from -90 to 90 degrees inclusive without raising, for leap and non-leap years, and raises ValueError for every latitude outside that range or missing.", "quantifier": "all real latitudes", "why_tests_cant": "A continuum of latitudes and the validity checks of three helper functions.", "anchors": ["src/climate_indices/indices.py: pet", "src/climate_indices/eto.py: _sunset_hour_angle, _solar_declination, _daylight_hours, _monthly_mean_daylight_hours"]}
{"id": "C32", "title": "Daylight hours are physical", "statement": "Monthly mean daylight hours lie in [0, 24], are 12 at the equator, and the hours at latitude L and -L add up to 24, for every month of leap and ordinary years.", "quantifier": "all latitudes within 90 degrees, all months", "why_tests_cant": "Trigonometric facts over a continuum.", "anchors": ["src/climate_indices/eto.py: _monthly_mean_daylight_hours, _daylight_hours, _sunset_hour_angle, _solar_declination"]}
{"id": "C33", "title": "PCI is Oliver's index of the twelve calendar months", "statement": "For 365 or 366 daily values without missing data and with positive total, pci returns 100 * (sum of squared calendar-month totals) / (annual total)^2, hence a value between 100/12 and 100; other lengths or partly missing data raise ValueError.", "quantifier": "all daily series", "why_tests_cant": "A defining equation over all inputs.", "anchors": ["src/climate_indices/indices.py: pci"]}
{"id": "C34", "title": "Hargreaves PET works on valid input", "statement": "eto_hargreaves returns one value per day for equally sized daily minimum, maximum and mean temperatures, and raises ValueError for arrays of different sizes.", "quantifier": "all arrays, 1-D or years x 366, all valid latitudes", "why_tests_cant": "No unit test exists; must hold for all arrays.", "anchors": ["src/climate_indices/eto.py: eto_hargreaves"]}
{"id": "C35", "title": "Palmer water balance conserves water", "statement": "For every month the precipitation equals evapotranspiration plus runoff plus the change of the two soil layers' moisture, and recharge minus loss equals that change.", "quantifier": "all monthly precipitation/PET histories and all soil capacities (exact arithmetic)", "why_tests_cant": "An invariant over all histories.", "anchors": ["src/climate_indices/palmer.py: _calc_recharge, _calc_water_balances"]}
{"id": "C36", "title": "Palmer soil moisture stays within capacity", "statement": "Starting from the full soil used by pdsi, for every month of every history of non-negative precipitation and PET the upper layer holds between 0 and 1 inch and the lower layer between 0 and max(AWC - 1, 0) inches.", "quantifier": "all histories of any length, all AWC > 0 (exact arithmetic)", "why_tests_cant": "Inductive invariant over unbounded histories.", "anchors": ["src/climate_indices/palmer.py: _calc_water_balances, _calc_recharge"]}
{"id": "C37", "title": "Actual terms never exceed potential terms", "statement": "For every month of every history: 0 <= ET <= PET, 0 <= recharge <= potential recharge, 0 <= loss <= potential loss, runoff >= 0; consequently the returned alpha, beta and delta coefficients lie in [0, 1] and gamma is non-negative.", "quantifier": "all histories, all AWC > 0, all calibration periods (exact arithmetic)", "why_tests_cant": "Inequalities over all reachable soil states.", "anchors": ["src/climate_indices/palmer.py: _calc_potential_loss, _calc_recharge, _calc_alpha, _calc_beta, _calc_gamma, _calc_delta"]}
{"id": "C38", "title": "Calibrated CAFEC precipitation is unbiased", "statement": "Over the calibration years, for each calendar month, the sum of the moisture departures P - P_CAFEC is zero, so the calendar-month mean of the Z-index over the calibration years is zero.", "quantifier": "all histories and calibration periods within the record (exact arithmetic)", "why_tests_cant": "An algebraic identity across the entire calibration, not visible in point tests.", "anchors": ["src/climate_indices/palmer.py: _calc_cafec_coefficients, _calc_zindex"]}
{"id": "C39", "title": "Palmer spell indices keep their signs", "statement": "At every month of every Z-index history the incipient wet index is >= 0 and the incipient dry index is <= 0, and the reported probability that a spell has ended is between 0 and 100.", "quantifier": "all Z histories (exact arithmetic)", "why_tests_cant": "Invariant of a state machine over all histories.", "anchors": ["src/climate_indices/palmer.py: _calc_zindex, _statement_170, _statement_180, _statement_190, _statement_200, _statement_210"]}
{"id": "C40", "title": "Every month receives its Palmer indices", "statement": "When pdsi returns, every month of the record has been assigned a PDSI, PHDI and PMDI value, and the four arrays have the length of the input.", "quantifier": "all Z histories of any length, any backlog pattern", "why_tests_cant": "Invariant of the backtracking bookkeeping over all histories.", "anchors": ["src/climate_indices/palmer.py: _assign, _finish_up, _calc_zindex, pdsi"]}
{"id": "C41", "title": "pdsi completes for any record", "statement": "The backtracking in pdsi never fails because a spell stays undecided for many months.", "quantifier": "all Z histories of any length", "why_tests_cant": "Needs long adversarial histories (more than 40 undecided months).", "anchors": ["src/climate_indices/palmer.py: _statement_200, _calc_zindex (K8_SIZE)"]}
{"id": "C42", "title": "A resolved month keeps its PDSI", "statement": "Once the backtracking has fixed the PDSI of past months, no later month of the same run changes the reported PDSI, PHDI or PMDI of those months.", "quantifier": "all Z histories and all later months", "why_tests_cant": "History property over all executions.", "anchors": ["src/climate_indices/palmer.py: _assign, _finish_up (k8max)"]}
{"id": "C43", "title": "Missing precipitation is visible in the Palmer output", "statement": "If a month's precipitation is missing, the PDSI of that month is reported as missing, and months that precede it are unaffected by it.", "quantifier": "all histories with missing months", "why_tests_cant": "All patterns of missing months.", "anchors": ["src/climate_indices/palmer.py: pdsi, _calc_recharge, _calc_kfactors, _statement_200"]}
{"id": "C44", "title": "Palmer fitting parameters can be reused", "statement": "Calling pdsi again on the same data with the returned parameter dictionary gives identical results; a dictionary that lacks one of the four 12-element entries is ignored entirely.", "quantifier": "all data and all dictionaries", "why_tests_cant": "Equality of two computation paths over all inputs.", "anchors": ["src/climate_indices/palmer.py: _validate_fitting_params, pdsi"]}
{"id": "C45", "title": "PMDI lies between the established and the incipient index", "statement": "The modified index reported for a month is x1 or x2 when no spell is established, and otherwise lies between the established index and the opposing incipient index, whenever the probability is within 0..100.", "quantifier": "all values of probability, x1, x2, x3", "why_tests_cant": "All real arguments.", "anchors": ["src/climate_indices/palmer.py: _case"]}
{"id": "C46", "title": "Worker chunks partition the grid", "statement": "The chunks assigned to the workers cover the first axis of the data exactly: every row belongs to exactly one chunk, in order, and chunk sizes differ by at most one.", "quantifier": "all axis lengths and worker counts >= 1, both command line tools", "why_tests_cant": "All pairs (rows, workers), including more workers than rows.", "anchors": ["src/climate_indices/__main__.py: _parallel_process", "src/climate_indices/__spi__.py: _parallel_spi, _parallel_fitting"]}
{"id": "C47", "title": "Results do not depend on scheduling", "statement": "For every interleaving of the workers' reads and writes on the shared arrays the result array equals the one computed sequentially, row by row.", "quantifier": "all interleavings of all workers, all data", "why_tests_cant": "All schedules.", "anchors": ["src/climate_indices/__main__.py: _parallel_process, _apply_along_axis, _apply_along_axis_double", "src/climate_indices/__spi__.py: _apply_to_subarray_spi"]}
{"id": "C48", "title": "Results do not depend on the number of workers", "statement": "The output for gridded, divisional and single time series input is the same for every number of worker processes.", "quantifier": "all worker counts, all input types and data", "why_tests_cant": "All worker counts and shapes.", "anchors": ["src/climate_indices/__main__.py: _parallel_process, _apply_along_axis"]}
{"id": "C49", "title": "Every multiprocessing option works on every host", "statement": "The options 'single', 'all' and 'all_but_one' lead to at least one worker on a machine with any number of CPUs.", "quantifier": "all CPU counts >= 1 and all three options", "why_tests_cant": "Depends on the host's CPU count.", "anchors": ["src/climate_indices/__main__.py: process_climate_indices, _parallel_process", "src/climate_indices/__spi__.py: main, _parallel_spi"]}
{"id": "C50", "title": "Argument validation admits only runnable index requests", "statement": "When the command line arguments pass validation, every input file needed by the requested index has been given, at most one of temperature and PET is used, and the requested index is one the processing step can compute.", "quantifier": "all argument combinations", "why_tests_cant": "All combinations of ten optional arguments.", "anchors": ["src/climate_indices/__main__.py: _validate_args, process_climate_indices, _parallel_process"]}
{"id": "C51", "title": "Each requested index is computed exactly once per scale and distribution", "statement": "For each --index choice the set of output variables is exactly the documented one: one SPI and one SPEI per scale and distribution, one PNP per scale, PET when it had to be computed; no output file overwrites another when the scales are distinct.", "quantifier": "all index choices, all lists of scales", "why_tests_cant": "All lists of scales.", "anchors": ["src/climate_indices/__main__.py: process_climate_indices, _get_variable_attributes, _compute_write_index"]}
{"id": "C52", "title": "Units are converted correctly or refused", "statement": "Precipitation/PET in millimetre units is used as is, in inches is multiplied by 25.4, temperatures in Fahrenheit or Kelvin become Celsius; every other unit string raises ValueError.", "quantifier": "all unit strings and all values", "why_tests_cant": "All strings and values.", "anchors": ["src/climate_indices/__main__.py: _compute_write_index (lines 756-798)", "src/climate_indices/__spi__.py: _compute_write_index"]}
{"id": "C53", "title": "Accepted dimension orders are processed", "statement": "Every dimension order accepted by the validation step is accepted by the processing step.", "quantifier": "all dimension tuples and input types", "why_tests_cant": "Two separately maintained tables must agree on all tuples.", "anchors": ["src/climate_indices/__main__.py: _validate_args, _drop_data_into_shared_arrays_grid, _prepare_file"]}
{"id": "C54", "title": "Batch SPI runs equal independent SPI runs", "statement": "In one run of the spi tool over several scales and distributions, the SPI written for each (scale, distribution) equals the SPI of the original precipitation data at that scale and distribution.", "quantifier": "all precipitation arrays, all sequences of scales", "why_tests_cant": "History property: earlier scales may influence later ones through shared memory.", "anchors": ["src/climate_indices/__spi__.py: _compute_write_index, _parallel_fitting, _parallel_spi, _apply_to_subarray_gamma"]}
{"id": "C55", "title": "Consecutive processing calls are independent", "statement": "A call of the processing entry point gives the same result regardless of which data sets were processed before in the same Python process.", "quantifier": "all sequences of calls", "why_tests_cant": "History property over process-wide state.", "anchors": ["src/climate_indices/__main__.py: _compute_write_index (_global_shared_arrays)"]}
{"id": "C56", "title": "Fitting-parameter files are never mixed up", "statement": "The spi tool refuses to both load and save parameters, refuses to save over an existing file unless overwrite is requested, and refuses to load a file that lacks a needed variable.", "quantifier": "all argument combinations and file states", "why_tests_cant": "All combinations.", "anchors": ["src/climate_indices/__spi__.py: _validate_args"]}
{"id": "C57", "title": "Coordinate tolerance is positive", "statement": "get_tolerance returns a positive tolerance, not larger than a tenth of the smallest grid spacing unless that is below the floating point resolution, for every coordinate axis.", "quantifier": "all coordinate axes, including axes with a single point", "why_tests_cant": "All axes.", "anchors": ["src/climate_indices/utils.py: get_tolerance", "src/climate_indices/__main__.py: _validate_args"]}
{"id": "C58", "title": "sign_change detects exactly the sign changes", "statement": "sign_change(a, b) has the shape of a, is symmetric in its arguments, marks an index exactly when the signs of the two finite values differ, and raises ValueError for arrays of different sizes.", "quantifier": "all pairs of arrays", "why_tests_cant": "All pairs.", "anchors": ["src/climate_indices/utils.py: sign_change"]}
{"id": "C59", "title": "rmse is a distance", "statement": "rmse is the root of the mean of the squared differences; it is non-negative, symmetric, zero exactly for equal arrays, and satisfies the triangle inequality. In float64 it is exactly symmetric for all arrays, accurate to (n+6)/2^52 and zero exactly for equal arrays if all differences are 0 or between 2^-400 and 2^400; it is 0 for all arrays that differ by at most 2^-538.", "quantifier": "all arrays of equal size (exact arithmetic; float64 with any order of additions)", "why_tests_cant": "Metric laws over all inputs.", "anchors": ["src/climate_indices/utils.py: rmse"]}
{"id": "C60", "title": "Divisional reshaping supports multi-year records", "statement": "reshape_to_divs_years_months turns a (divisions, months) array into (divisions, years, 12) with month m of division d at year m//12, month m%12.", "quantifier": "all numbers of divisions and of months", "why_tests_cant": "All sizes.", "anchors": ["src/climate_indices/utils.py: reshape_to_divs_years_months"]}
{"id": "C61", "title": "An incomplete final calibration year keeps the Palmer indices", "statement": "If the record ends inside a year and the calibration period includes that year, pdsi still computes Z values from the months that have data.", "quantifier": "all records with an incomplete final year, all calibration periods reaching it, all log10", "why_tests_cant": "Needs every record length and every data set; the effect is a silent constant result.", "anchors": ["src/climate_indices/palmer.py: pdsi, _calc_kfactors", "src/climate_indices/utils.py: reshape_to_2d"]}
{"id": "C62", "title": "A missing month leaves the soil moisture unchanged", "statement": "After a month with missing precipitation the Palmer water balance continues from the soil moisture before that month.", "quantifier": "all histories, all continuations", "why_tests_cant": "Holds or fails for all soil states; a test sees one.", "anchors": ["src/climate_indices/palmer.py: _calc_recharge, _calc_water_balances"]}
{"id": "C63", "title": "Palmer weighting factors use calibration years only", "statement": "The weighting factors of the Z-index depend only on the months of the calibration years; a calibration period outside the record is rejected.", "quantifier": "all records and calibration periods", "why_tests_cant": "Independence from all other data is a statement about pairs of inputs.", "anchors": ["src/climate_indices/palmer.py: _calc_kfactors"]}
{"id": "C64", "title": "Warmer months evaporate at least as much", "statement": "Within one record, of two months of the same calendar month in years of the same length, the one with the higher temperature has at least as much Thornthwaite PET. In float64 this holds for the computed numbers without an error margin when the library's power function is monotone.", "quantifier": "all records with a value for each calendar month and one above freezing, all latitudes strictly between the poles, all pairs of months", "why_tests_cant": "The exponent and the heat index depend on the whole record; sampling cannot cover it.", "anchors": ["src/climate_indices/eto.py: eto_thornthwaite"]}
{"id": "C65", "title": "Each division is computed from its own series", "statement": "In the SPI tool the result for a climate division is the SPI of that division's own series with that division's fitting parameters.", "quantifier": "all divisional data sets, chunk sizes, distributions and parameters", "why_tests_cant": "All chunkings of the divisions among the workers.", "anchors": ["src/climate_indices/__spi__.py: _apply_to_subarray_spi"]}
{"id": "C66", "title": "The output at a place is the index of the data of that place", "statement": "After a finished run of the main tool, at every place of the grid (or division) the values of each output variable are the index function (SPI, SPEI, PNP, PET) applied to the input series of that place after conversion of units; PET with the latitude of that place, SPEI with the PET of that place, given or computed in the same run. The output file has the coordinates of the input.", "quantifier": "all files, scales, distributions, units, numbers of workers, grid and division shapes, previous contents of the shared arrays", "why_tests_cant": "Validation, loading, unit conversion, chunking among workers, shared arrays and writing all have to act together; tests look at single functions.", "anchors": ["src/climate_indices/__main__.py: process_climate_indices", "src/climate_indices/__main__.py: _compute_write_index", "src/climate_indices/__main__.py: _parallel_process", "src/climate_indices/__main__.py: _apply_along_axis", "src/climate_indices/__main__.py: _apply_along_axis_double"]}
{"id": "C67", "title": "Divisions may be stored time first", "statement": "For a divisional data set stored in the accepted dimension order (time, division) the values written for a division are the SPI of that division's own time series.", "quantifier": "all divisional data sets in the order (time, division), scales, distributions", "why_tests_cant": "Tests use one dimension order only.", "anchors": ["src/climate_indices/__main__.py: _validate_args", "src/climate_indices/__main__.py: _drop_data_into_shared_arrays_divisions", "src/climate_indices/__main__.py: _apply_along_axis"]}
{"id": "C68", "title": "SPI tool: output is the SPI of the data of that place", "statement": "After every finished run of the SPI tool, the documented file of every scale and distribution has the coordinates of the input and, at every place, the SPI of the precipitation of that place (in millimetres; daily values via 366-day years).", "quantifier": "for all grids, data, scales, calibration years, numbers of workers, and external fitting functions", "why_tests_cant": "tests run the index functions, not the tool with its shared arrays, chunks and repeated scales; the effect of one scale on the next needs runs with several scales and data with zeros", "anchors": ["src/climate_indices/__spi__.py:497-716", "src/climate_indices/__spi__.py:833-1258"]}
{"id": "C69", "title": "SPI tool: saved parameters reproduce the results when loaded", "statement": "If a run saves its fitting parameters and a run with the same arguments loads them, both write the same values.", "quantifier": "for all grids, data, scales, both distributions, numbers of workers", "why_tests_cant": "needs two runs of the tool in separate processes on data with zeros", "anchors": ["src/climate_indices/__spi__.py:535-587", "src/climate_indices/__spi__.py:661-674", "src/climate_indices/__spi__.py:704-716"]}
{"id": "C70", "title": "SPI tool: divisions and single time series are processed", "statement": "A run on a variable with dimensions (division, time) or (time), which the tool accepts, finishes.", "quantifier": "for all inputs, arguments and numbers of workers", "why_tests_cant": "a test of one failing input does not show that none works", "anchors": ["src/climate_indices/__spi__.py:37-45", "src/climate_indices/__spi__.py:85-94", "src/climate_indices/__spi__.py:400-449", "src/climate_indices/__spi__.py:1060-1095"]}
{"id": "C71", "title": "SPI tool: daily records that end within a year are processed", "statement": "A run on a daily grid whose last year is incomplete finishes.", "quantifier": "for all records whose number of days is not that of whole Gregorian years", "why_tests_cant": "depends on the lengths of all records and years", "anchors": ["src/climate_indices/__spi__.py:283-297", "src/climate_indices/__spi__.py:619-632", "src/climate_indices/__spi__.py:1042-1044"]}
{"id": "C72", "title": "SPI tool: loaded parameters belong to the places of the data", "statement": "Loaded parameters are applied at the places (latitude, longitude) for which they were fitted, or refused.", "quantifier": "for all data and parameter files", "why_tests_cant": "tests load what was just saved on the same grid", "anchors": ["src/climate_indices/__spi__.py:535-541", "src/climate_indices/__spi__.py:314-345", "src/climate_indices/__spi__.py:1046-1058"]}
{"id": "C73", "title": "SPI tool: saved parameters are those of the data of the place", "statement": "The saved file has the parameters of all scales on the places of the input, and at every place they are those fitted to the precipitation of that place.", "quantifier": "for all grids, data, scales, calibration years, numbers of workers", "why_tests_cant": "tests do not look at the saved parameters", "anchors": ["src/climate_indices/__spi__.py:704-716", "src/climate_indices/__spi__.py:1098-1258"]}
{"id": "C74", "title": "Main tool: daily values of climate divisions", "statement": "Daily values of climate divisions are processed: after a run the values written for a division are the index of its daily values, every day in the slot of its calendar day.", "quantifier": "for all daily division records, scales, calibration years, numbers of workers", "why_tests_cant": "tests run no tool on divisions with daily data", "anchors": ["src/climate_indices/__main__.py:628-677", "src/climate_indices/__main__.py:1065-1072", "src/climate_indices/utils.py:409"]}
{"id": "C75", "title": "Main tool: daily grid records", "statement": "Daily values on a grid are processed, also if the record ends within a year: at every place the value written for a day is the index at that calendar day.", "quantifier": "for all daily grid records, start years, scales, calibration years, numbers of workers", "why_tests_cant": "tests use at most one short record of whole years", "anchors": ["src/climate_indices/__main__.py:592-606", "src/climate_indices/__main__.py:1065-1072", "src/climate_indices/utils.py:308-401"]}
{"id": "C76", "title": "Main tool: Thornthwaite's equation gets monthly temperatures", "statement": "Daily temperatures are refused wherever the tool would use them in Thornthwaite's monthly equation.", "quantifier": "for all requests and files", "why_tests_cant": "tests check a handful of argument combinations", "anchors": ["src/climate_indices/__main__.py:152-157", "src/climate_indices/__main__.py:188", "src/climate_indices/__main__.py:1664-1717"]}
{"id": "C77", "title": "Main tool: accepted input files give output on the input grid", "statement": "If the coordinates of two input files are accepted as matching, the output has one row of values for every place of the precipitation data.", "quantifier": "for all files, data, scales", "why_tests_cant": "tests use files written by the same program, with identical coordinates", "anchors": ["src/climate_indices/__main__.py:222-233", "src/climate_indices/__main__.py:309-320", "src/climate_indices/__main__.py:690-713"]}
{"id": "C78", "title": "Main tool: grids with a single row or column", "statement": "A grid with a single latitude or a single longitude is accepted for every index.", "quantifier": "for all requests and files", "why_tests_cant": "test grids have several rows and columns", "anchors": ["src/climate_indices/__main__.py:222-233", "src/climate_indices/__main__.py:309-320", "src/climate_indices/utils.py:112-119"]}
{"id": "C79", "title": "Main tool: accepted coordinates differ by less than a tenth of the spacing", "statement": "Coordinates of two files that are accepted as matching differ by at most a tenth of the smallest spacing of the axis.", "quantifier": "for all pairs of axes", "why_tests_cant": "a test sees a few pairs of axes", "anchors": ["src/climate_indices/__main__.py:222-233", "src/climate_indices/__main__.py:309-320", "src/climate_indices/utils.py:112-119"]}
{"id": "C80", "title": "Palmer indices are bounded by the Z-index", "statement": "If no Z value of a record exceeds M in absolute value, no PDSI, PHDI or PMDI exceeds M / 0.309 in absolute value, at any month.", "quantifier": "for all Z histories of any length, in exact arithmetic, and all bounds M", "why_tests_cant": "the bound concerns the accumulation over records of any length and all paths through the spell machine", "anchors": ["src/climate_indices/palmer.py:317-350", "src/climate_indices/palmer.py:439-580", "src/climate_indices/palmer.py:627-720"]}
{"id": "C81", "title": "Palmer's recursion and the beginning of spells", "statement": "The three indices of each month follow those of the month before by the recursion 0.897 * X + Z / 3 in one of Palmer's admissible ways, and an established spell begins only with an index of at least 1 in absolute value.", "quantifier": "for all Z histories and months, in exact arithmetic", "why_tests_cant": "a test sees a few records; the cases of the branching depend on accumulated values", "anchors": ["src/climate_indices/palmer.py:439-580", "src/climate_indices/palmer.py:627-697"]}
{"id": "C82", "title": "Resolution of undecided Palmer months", "statement": "As soon as a month is decided, the undecided months before it are resolved: all get the established index if the established spell certainly goes on, otherwise each gets an incipient index, of the kind used for the month after it unless that index is zero; a month resolved this way has a PDSI of zero only if both incipient indices are zero.", "quantifier": "for all Z histories, in any arithmetic", "why_tests_cant": "the stretch of undecided months has any length up to the size of the backlog; tests contain a few short ones", "anchors": ["src/climate_indices/palmer.py:353-419", "src/climate_indices/palmer.py:475-554"]}
{"id": "C83", "title": "The Pearson III fit matches the sample", "statement": "The distribution fitted by L-moments has the mean and the second L-moment (half the mean absolute difference) of the non-missing sample values; negating the sample mirrors the fitted distribution.", "quantifier": "for all samples of at least four non-missing values (matching), all samples (mirror), in exact arithmetic with the real elementary functions", "why_tests_cant": "a test compares parameters of one sample with stored numbers; a wrong constant or sign shows only for other skews", "anchors": ["src/climate_indices/lmoments.py:17-104", "src/climate_indices/lmoments.py:107-179"]}
{"id": "C84", "title": "Gamma SPI equals the published index", "statement": "For a record of non-negative or missing values the gamma SPI at every step with an accumulation is the normal quantile of q + (1-q) G(v), clamped to ±3.09, where G is the gamma distribution with Thom's parameters for the positive accumulations of the calendar step in the calibration period, and q the share of zeros in that sample.", "quantifier": "for all records, scales, both periodicities, all calibration periods within the record, all distribution functions G and quantile functions, in exact arithmetic", "why_tests_cant": "a test compares stored numbers; whether the parameters, the calendar step and the probability of zero are the published ones for all records cannot be seen from samples", "anchors": ["src/climate_indices/indices.py:69-204", "src/climate_indices/compute.py:638-715", "src/climate_indices/compute.py:760-831"]}
{"id": "C85", "title": "Pearson SPI treats zeros as the mixed distribution prescribes", "statement": "For a record of non-negative or missing values the Pearson SPI at a positive accumulation is the normal quantile of q + (1-q) P(v), clamped, where q is the share of zeros among the accumulations of the calendar step in the calibration period and P is the Pearson III distribution fitted to the positive ones.", "quantifier": "for all records, scales, both periodicities, calibration periods within the record with at least four positive accumulations at the step, in exact arithmetic", "why_tests_cant": "a test has few samples with zeros, and compares with numbers produced by the same code", "anchors": ["src/climate_indices/compute.py:248-313", "src/climate_indices/compute.py:440-549", "src/climate_indices/compute.py:552-635", "src/climate_indices/lmoments.py:17-179"]}
{"id": "C86", "title": "The Z-index is Palmer's moisture anomaly index", "statement": "For every record of non-negative precipitation and PET the returned Z-index is Palmer's (1965): departure from the climatically appropriate precipitation of the two-layer soil, weighted by K = 17.67 K'/sum(D K') with K' = 1.5 log10((T + 2.8)/D) + 0.5 of the calibration years.", "quantifier": "for all records, capacities of at least 1 inch, calibration periods of complete years, computed or given coefficients, in exact arithmetic", "why_tests_cant": "tests compare with numbers stored from an earlier run; they contain no month without departures and no calibration period of one year", "anchors": ["src/climate_indices/palmer.py:19-314", "src/climate_indices/palmer.py:627-652", "src/climate_indices/palmer.py:829-922"]}
{"id": "C87", "title": "Palmer treats wet and dry spells alike", "statement": "If every Z value changes its sign, PDSI, PHDI and PMDI of every month change their sign and nothing else: Palmer's rules for droughts are his rules for wet spells with the signs exchanged.", "quantifier": "all histories of Z values", "why_tests_cant": "The tests compare one data set with stored numbers; no test runs a history and its negative, and the violation needs a spell that ends in a particular way.", "anchors": ["src/climate_indices/palmer.py:317", "src/climate_indices/palmer.py:475", "src/climate_indices/palmer.py:605"]}
{"id": "C88", "title": "Appending new data leaves earlier values unchanged", "statement": "For a fixed calibration period inside the shorter record, computing an index for a record and for the same record with further time steps appended gives the same values for the time steps of the shorter record (SPI, percentage of normal, Thornthwaite PET, Palmer indices).", "quantifier": "all records, all appended data, all scales and calibration periods inside the complete years of the shorter record", "why_tests_cant": "A test compares a few pairs of records; whether a later value can reach back into an earlier one depends on every intermediate step (clipping on the minimum of the record, probability of zero over the record, heat index over the record, resolution of undecided months), and the failures need specific later data.", "anchors": ["src/climate_indices/indices.py:69-206", "src/climate_indices/indices.py:349-457", "src/climate_indices/compute.py:261-440", "src/climate_indices/compute.py:638-810", "src/climate_indices/eto.py:196-290", "src/climate_indices/palmer.py:699-922"]}
{"id": "C89", "title": "SPEI is the SPI of the shifted water balance", "statement": "spei(precips, pet, ...) returns the same values, or the same error, as spi of the series precips - pet + 1000, with the same scale, distribution, periodicity, calibration period and supplied parameters; in particular every order property of the SPI holds for the SPEI with respect to the accumulated water balance.", "quantifier": "all precipitation and PET series of equal size, scales, distributions, periodicities, calibration periods, supplied parameters", "why_tests_cant": "The two functions are written separately and repeat the same stages with small differences (order of clipping and subtraction, spelling of parameter names); a test compares numbers of one of them only, and the differences show only for particular data (negative balances).", "anchors": ["src/climate_indices/indices.py:69-204", "src/climate_indices/indices.py:207-346"]}
{"id": "C90", "title": "Indices do not depend on the unit of the data", "statement": "With the Pearson distribution, multiplying precipitation (SPI) or precipitation and PET (SPEI) by a positive constant, or adding a constant to PET (SPEI), does not change the index.", "quantifier": "all records, all positive factors, all additive constants, all scales, periodicities and calibration periods, exact arithmetic", "why_tests_cant": "Inputs in inches, centimetres and millimetres are all accepted; a test fixes one unit, and thresholds and offsets with a hidden unit (0.0005, 1000) show only for particular data.", "anchors": ["src/climate_indices/compute.py:261-440", "src/climate_indices/compute.py:443-549", "src/climate_indices/compute.py:552-635", "src/climate_indices/indices.py:207-346", "src/climate_indices/lmoments.py:20-179"]}
{"id": "C91", "title": "Only differences of years matter", "statement": "Adding the same number of years to the first year of the data and to both calibration years changes neither the values nor the error of SPI, SPEI, percentage of normal, Thornthwaite PET and the Palmer indices.", "quantifier": "all data, all years, all shifts (also negative), all scales, distributions, periodicities and supplied parameters", "why_tests_cant": "Tests use one first year; a comparison of a calendar year with a position or a constant shows only for particular first years.", "anchors": ["src/climate_indices/indices.py:69-204", "src/climate_indices/indices.py:207-346", "src/climate_indices/indices.py:349-457", "src/climate_indices/compute.py:261-440", "src/climate_indices/compute.py:552-831", "src/climate_indices/eto.py:196-290", "src/climate_indices/palmer.py:829-922"]}
{"id": "C92", "title": "An index at scale k is that at scale 1 of the k-step sums", "statement": "The SPI and the percentage of normal at scale k equal those at scale 1 of the series of k-step moving sums.", "quantifier": "all series of non-negative or missing precipitation (any series for the percentage of normal), all scales from 1 to the length of the series, all distributions, periodicities, years and supplied parameters", "why_tests_cant": "The scale enters in the accumulation only; a second use of it (in a fit, a calibration window, an offset) would change only some scales and periods.", "anchors": ["src/climate_indices/indices.py:69-204", "src/climate_indices/indices.py:349-456", "src/climate_indices/compute.py:115-165", "src/climate_indices/compute.py:718-757"]}
{"id": "C93", "title": "Both command line tools write the same SPI", "statement": "For the same precipitation file, scales, distribution, periodicity and calibration period, process_climate_indices --index spi and the SPI-only tool write the same values at every place and time.", "quantifier": "all gridded files, all scale lists, both distributions, both periodicities, all calibration periods", "why_tests_cant": "The tools share no code for reading, parallel processing and fitting (the SPI tool fits and transforms in separate passes over shared arrays); a test would have to run both on the same file for each combination.", "anchors": ["src/climate_indices/__main__.py:561-1098", "src/climate_indices/__main__.py:1108-1303", "src/climate_indices/__spi__.py:497-1258", "src/climate_indices/indices.py:69-204"]}
{"id": "C94", "title": "More rain in the current month never lowers the current PDSI", "statement": "If two records differ only in the last month and the last month is wetter in the second (larger Z value, or more precipitation with everything else the same), the PDSI and the PHDI of the last month are not smaller in the second record.", "quantifier": "all records of Z values with any past and any two current values; for precipitation all records of complete years whose calibration ends before the last year", "why_tests_cant": "The current value comes out of five branches (normal, wet, dry, ending with probability below or at 100 %) and jumps between three indices; that no jump goes the wrong way is a statement about every past and every pair of values", "anchors": ["src/climate_indices/palmer.py:317-720", "src/climate_indices/palmer.py:829-922"]}
{"id": "C95", "title": "Soil layers stay within their capacity in float64", "statement": "With the rounded arithmetic the program really uses, the water in the upper soil layer is always between 0 and 1 inch and in the lower layer between 0 and its capacity (AWC minus 1, not below 0).", "quantifier": "all float64 AWC values, all records of any length of float64 precipitation and PET values, no exact arithmetic", "why_tests_cant": "Whether a rounded sum exceeds the capacity depends on the last bit of the data; a test sees a violation only for values it happens to try and a correct run proves nothing about the next record", "anchors": ["src/climate_indices/palmer.py:19-27", "src/climate_indices/palmer.py:52-132", "src/climate_indices/palmer.py:189-241"]}
{"id": "C96", "title": "CAFEC coefficients in float64 agree with exact arithmetic", "statement": "The CAFEC coefficients the program computes in float64 differ from the coefficients computed in exact arithmetic from the same data by rounding errors only.", "quantifier": "all records of calibration years", "why_tests_cant": "The coefficients are ratios with a special case for a zero sum; one rounding error decides between the cases, which needs special data", "anchors": ["src/climate_indices/palmer.py:135-186", "src/climate_indices/palmer.py:189-253"]}
{"id": "C97", "title": "Sums over k steps are accurate in float64", "statement": "In float64, every k-step sum of precipitation differs from the exact sum of the same values by at most k units of 2^-52 relative to the sum, and is missing exactly if the exact sum is, whatever the order in which numpy adds.", "quantifier": "all float64 records of non-negative precipitation with any missing values, all scales k, all orders of additions", "why_tests_cant": "The order of additions in numpy depends on version and length of the array; a test has one order and a few values", "anchors": ["src/climate_indices/compute.py:115-165"]}
{"id": "C98", "title": "Percentage of normal is accurate in float64", "statement": "The percentage of normal computed in float64 from k-step sums and averages over Y calibration years differs from the exact value for the same data by at most 3k + 2Y + 3 units of 2^-52 relative to it, and is missing exactly if the exact value is.", "quantifier": "all float64 records of non-negative precipitation, all scales, both periodicities, all calibration periods within the record", "why_tests_cant": "An error bound for all data cannot be read off from examples", "anchors": ["src/climate_indices/indices.py:349-456"]}
{"id": "C99", "title": "Precipitation concentration index is accurate in float64", "statement": "The precipitation concentration index computed in float64 differs from the exact index of the same data by less than 10^-12 relative to it.", "quantifier": "all float64 records of 365 or 366 daily values, non-negative and not all zero, all orders of additions", "why_tests_cant": "An error bound for all data cannot be read off from examples", "anchors": ["src/climate_indices/indices.py:514-570"]}
{"id": "C100", "title": "Rounding errors of the water balance grow at most linearly", "statement": "In month t of a record the soil water, potential and actual recharge, loss, runoff and evapotranspiration computed in float64 differ from the exact values for the same data by at most a fixed multiple of t times the largest input times 2^-53; rounding errors carried from month to month are never amplified.", "quantifier": "all float64 records of any length with values up to 10^12 inches, all AWC values from 10^-6 inches", "why_tests_cant": "A test compares a run with another float run, not with exact arithmetic, and only for short records; that errors carried in the soil state do not grow exponentially is a statement about all lengths", "anchors": ["src/climate_indices/palmer.py:52-132", "src/climate_indices/palmer.py:189-241"]}
{"id": "C101", "title": "Main tool: coordinates are carried over", "statement": "Every coordinate that has the same values in all input files of a computation is in the output file with these values in the same order, also when other coordinates of the files differ and are joined; besides coordinates the output file has only the new variable.", "quantifier": "all computations of the main tool that finish, all sets of input files and coordinates", "why_tests_cant": "needs a run of the tool with several files and an axis that is not increasing; the tests never run the tool", "anchors": ["src/climate_indices/__main__.py:690-713", "src/climate_indices/__main__.py:1057-1095"]}
{"id": "C102", "title": "Order of the years does not matter at scale 1", "statement": "At scale 1, with a calibration period that contains the record, SPI, SPEI and percentage of normal treat years as exchangeable: if the years of the record are put into another order, every month keeps its value wherever its year is placed (both distributions, monthly and daily, with or without fitting parameters, whatever is missing), and the two calls raise the same exception or none. In exact arithmetic; in float64 the mean of the same numbers in another order can differ in the last bits. At larger scales or with a shorter calibration period it is not so. Thornthwaite PET of whole years is exchangeable in the same sense as long as leap years are put in the place of leap years; otherwise it is not, because February has another number of days.", "quantifier": "all records of n years, all permutations of the years, all start years, all calibration periods containing the record, all fitting parameters", "why_tests_cant": "tests compare one record with stored output; none permutes years, and a dependence on the order (a fit that uses neighbouring years, an index shifted by one row, a sort that keeps positions) is invisible for the one order tested", "anchors": ["compute.py:549-716", "compute.py:760-831", "indices.py:69-204", "indices.py:207-346", "indices.py:349-456", "src/climate_indices/eto.py: eto_thornthwaite"]}
{"id": "C103", "title": "Palmer indices bounded in float64", "statement": "If the Z-index values of a record are finite float64 numbers of absolute value at most M (M <= 2^100), all PDSI, PHDI and PMDI values computed by the spell machine in IEEE binary64 are finite, and no larger than M / 0.309 in absolute value up to one part in 10^12: rounding errors do not build up and no NaN arises, however long the record is.", "quantifier": "all records of finite float64 Z values of every length, all bounds M <= 2^100, all summation orders; pdsi for records of whole years", "why_tests_cant": "Tests run records of a century; whether rounding in the recursions, in the accumulated wetness or in the interpolation can produce NaN or drift over an arbitrarily long record is a statement about all states of the spell machine.", "anchors": ["src/climate_indices/palmer.py:317-350", "src/climate_indices/palmer.py:421-696"]}
{"id": "C104", "title": "L-moment fit in float64", "statement": "Computed in IEEE binary64, mean and L-scale of a sample of 4 to 2^17 non-negative numbers differ from the exact sample L-moments by at most (13 n + 80) 2^-52 times the mean, the L-skewness by a corresponding amount, and the Pearson fit is refused exactly for the samples that are degenerate (all values but one equal).", "quantifier": "all samples of float64 numbers that are zero or between 1e-100 and 1e100, with any missing values, in any order", "why_tests_cant": "Rounding errors of running sums depend on all values of a sample; a test compares a few samples with tabulated parameters and misses those where rounding decides between a fit and a ValueError.", "anchors": ["src/climate_indices/lmoments.py:17-35", "src/climate_indices/lmoments.py:107-179"]}
{"id": "C105", "title": "The command line is read as it was given", "statement": "A command line consisting of settings of the documented options (value after the option, or joined by = if it begins with a dash), in any order, is read as exactly these arguments: every option gets the value of its last setting, options that are not mentioned get none, numbers and lists are read as written, unique beginnings of option names count as the names; conversely everything on an accepted command line belongs to some setting: unknown or ambiguous options, missing required options and values outside the choices are refused before anything is computed.", "quantifier": "all command lines (lists of strings of any length), both tools, all values of the options, any int() that reads what str() writes", "why_tests_cant": "argparse is driven by the text of the arguments: prefixes, values that look like options, lists followed by options; tests use a few complete command lines.", "anchors": ["src/climate_indices/__main__.py:1511-1590", "src/climate_indices/__spi__.py:1335-1410"]}
{"id": "C106", "title": "Calibration years that are left out", "statement": "The two calibration year options may be left out. With both given the tool computes the indices for these years; PET does not depend on them. When they are left out and an index needs them, the tool still gives the index for a default period or refuses the command line before it starts. (It does not: unless the start year lies before the record, the run ends with a TypeError from the comparison of a year with None, for PNP always, for SPI and SPEI whenever there is a value to compute.)", "quantifier": "all command lines, files, numbers of workers, index functions' external parts; every year combination", "why_tests_cant": "The tests always pass both years; what happens without depends on the index, the data and the evaluation order of two comparisons.", "anchors": ["src/climate_indices/__main__.py:1532-1537", "src/climate_indices/compute.py:242-245", "src/climate_indices/compute.py:619-621", "src/climate_indices/indices.py:414-419"]}
{"id": "C107", "title": "SPI tool: loaded parameters make the calibration years irrelevant", "statement": "A run of the SPI tool with --load_params gives the same files, values and exceptions whatever the calibration years are, since nothing is fitted.", "quantifier": "all data, parameter files, scales, numbers of workers and all pairs of years (also outside the record or reversed)", "why_tests_cant": "The years are passed through every stage of the computation; a test compares two particular pairs on one data set.", "anchors": ["src/climate_indices/__spi__.py:661-702", "src/climate_indices/compute.py:605-630", "src/climate_indices/compute.py:803-822"]}
{"id": "C108", "title": "Written values lie in the declared valid range", "statement": "Every value that a tool writes is missing or lies between the valid_min and valid_max attributes that the tool writes beside it (SPI and SPEI -3.09 to 3.09, percentage of normal -1000 to 1000, PET 0 to 10000 mm).", "quantifier": "all finished runs, all inputs, scales and distributions", "why_tests_cant": "The attributes are written without looking at the values; tests do not compare them, and readers such as netCDF tools mask values outside the valid range.", "anchors": ["src/climate_indices/__main__.py:523-558", "src/climate_indices/__main__.py:1056-1081", "src/climate_indices/__spi__.py:221-236", "src/climate_indices/indices.py:28-29"]}
{"id": "C109", "title": "The workaround for old scipy releases gives the same index", "statement": "With a scipy release before 1.6.0, whose Pearson type III distribution function is NaN outside the support and one minus the right value for negative skew (as the comments say), the workaround branch of _pearson_fit gives the same fitted values as the normal branch gives with a newer release.", "quantifier": "All arrays, calibration periods, parameters and special functions that are related in this way", "why_tests_cant": "The branch is chosen once at import from the installed release; one installation can only test one of the two, and agreement is over all samples and parameters.", "anchors": ["src/climate_indices/compute.py:25", "src/climate_indices/compute.py:504-527"]}
{"id": "C110", "title": "Masked values are treated as missing", "statement": "In a numpy masked array (what netCDF4 returns for variables with fill values) masked elements count as missing: the SPI and the percentage of normal are those of the array with NaN at the masked places, whatever the data under the mask.", "quantifier": "All masked arrays, masks, scales of at least 2, distributions, calibration periods", "why_tests_cant": "The tests use no partially masked arrays; the functions test for entirely masked input only, and the values under the mask are arbitrary.", "anchors": ["src/climate_indices/indices.py:124", "src/climate_indices/indices.py:410", "src/climate_indices/compute.py:149-157"]}
{"id": "C111", "title": "is_data_valid tells whether there is a number", "statement": "is_data_valid returns True for an array exactly if at least one element is non-NaN (for a masked array: at least one visible element).", "quantifier": "All arrays and masked arrays", "why_tests_cant": "Quantifies over all arrays and masks.", "anchors": ["src/climate_indices/utils.py:150-175"]}
{"id": "C112", "title": "Evapotranspiration follows latitude and season", "statement": "For the same temperatures, a place further north (both strictly between the poles) has at least as much Thornthwaite PET in every month from April to August and at most as much in every month from October to February; the same holds for the monthly mean day length.", "quantifier": "All temperature records with a value of every calendar month and one above freezing, all pairs of latitudes, all start years", "why_tests_cant": "An order relation over a continuum of latitudes and all records; tests compare a few latitudes with stored values.", "anchors": ["src/climate_indices/eto.py:57-193", "src/climate_indices/eto.py:259-278"]}
{"id": "C113", "title": "Which runs of the main tool finish, and what a failed run leaves", "statement": "A run of the main tool for SPI or for the percentage of normal from monthly precipitation (grid or divisions) in a fresh process finishes exactly if every output can be computed at every place. The outputs before the first one that cannot be computed at some place are written, in the documented order and with the right values; no other file is touched. For SPI in exact arithmetic this means: no place, scale and calendar month has a calibration sample with at least four positive accumulations of which all but one are equal. A single such place makes the run of the whole grid fail without any output if it concerns the first scale. For the percentage of normal: the calibration begins inside the record and is not longer than it, and the scales are between 1 and the length of the record.", "quantifier": "all grids and divisions, all numbers of workers, all scales, all calibration years, all values", "why_tests_cant": "the condition quantifies over all places, scales and months of a grid; a test uses a few well-behaved cells", "anchors": ["src/climate_indices/__main__.py:680-1097", "src/climate_indices/__main__.py:1144-1363", "src/climate_indices/__main__.py:1602-1790"]}
{"id": "C114", "title": "The documented command line puts the published index into the files", "statement": "For every documented command line of the main tool for SPI or for the percentage of normal of monthly precipitation, for PET of monthly temperature, or for SPEI or all scaled indices of monthly precipitation and a PET file or temperature (any files, names, scales from 1 to the length of the record, calibration years inside the record, number of workers) and every input with a Pearson fit at all places, the process ends without exception, writes exactly the documented files, leaves all other files unchanged, and at every place of the grid the values in the files are the published index (gamma or Pearson, with the exceptions of C84 and C85) or the ratio to the normal of the precipitation of that place, Thornthwaite's evapotranspiration of its temperature and latitude (with the exceptions of C30), or the index of its accumulated water balance (C115).", "quantifier": "for all command lines, file systems, grids and divisions, numbers of places and months, missing values, scales, calibration years, numbers of CPUs", "why_tests_cant": "Spans the parser, the file handling, the shared memory and worker processes, the accumulation, the fit and the transformation; a test compares one fixture with a stored result.", "anchors": ["src/climate_indices/__main__.py:1470-1700", "src/climate_indices/indices.py:69-204", "src/climate_indices/indices.py:349-456"]}
{"id": "C115", "title": "Pearson SPEI is the standardised climatic water balance", "statement": "For precipitation that is not negative and a water balance above -1000, the Pearson SPEI of every record with missing values is the normal quantile of the probability of the accumulated water balance P - PET in the Pearson type III distribution that has the L-moments of the accumulated balances of the same calendar step in the calibration years; the 1000 that the code adds has no influence. It is refused exactly if all but one of at least four balances of a calendar step are equal. The gamma SPEI is the gamma index of the balance raised by 1000 per step.", "quantifier": "for all records, missing values, time scales, monthly and daily data, calibration years inside the record", "why_tests_cant": "The tests compare with stored results of the same code, so that an influence of the added 1000 is part of the expected values.", "anchors": ["src/climate_indices/indices.py:207-346"]}
{"id": "C116", "title": "Which SPEI and combined runs of the main tool finish, and what a failed run leaves", "statement": "A run of the main tool for SPEI or for all scaled indices (SPI, SPEI and percentage of normal) from monthly precipitation and a PET file on the same coordinates (grid or divisions), in a fresh process, finishes exactly if every output can be computed at every place. In any case the outputs before the first one that cannot be computed at some place are written, in the documented order and with the right values, and no other file is touched. In exact arithmetic, for precipitation that is not negative and a water balance above minus 999.9995 mm, this means for SPEI: no place, scale and calendar month has a calibration sample of at least four accumulated water balances of which all but one are equal; for all scaled indices, in addition, no such sample of the accumulated precipitation itself.", "quantifier": "all grids and divisions, all numbers of workers, all scales, all calibration years, all values", "why_tests_cant": "the condition quantifies over all places, scales and months of two grids, and over every prefix of a run; a test uses a few well-behaved cells", "anchors": ["src/climate_indices/__main__.py:680-1097", "src/climate_indices/__main__.py:1144-1363", "src/climate_indices/__main__.py:1602-1790", "src/climate_indices/indices.py:207-347"]}
{"id": "C117", "title": "Which runs of the main tool that compute evapotranspiration finish, and what a failed run leaves", "statement": "A run of the main tool for PET from monthly temperature, or for SPEI or all scaled indices from monthly precipitation and temperature on the same coordinates (grid or divisions, no PET file), in a fresh process, finishes exactly if every output can be computed at every place from the precipitation, the temperature in degrees Celsius and the latitude of its row. In any case the outputs before the first one that cannot be computed at some place are written, in the documented order and with the right values, and no other file is touched. In exact arithmetic a PET run finishes exactly if every row with any temperature lies strictly between the poles; a SPEI run between the poles finishes, for precipitation that is not negative and a water balance above minus 999.9995 mm, exactly if no place, scale and calendar month has a calibration sample of at least four accumulated water balances of which all but one are equal; a run for all scaled indices moreover exactly if the accumulated precipitation has no such sample.", "quantifier": "all grids and divisions, latitudes, numbers of workers, scales, calibration years, temperatures and precipitation, missing values", "why_tests_cant": "the condition quantifies over all places, scales and months of two grids and over every prefix of a run in several phases; the tests never run the tool from temperature to SPEI", "anchors": ["src/climate_indices/__main__.py:680-1097", "src/climate_indices/__main__.py:1100-1363", "src/climate_indices/__main__.py:1602-1790", "src/climate_indices/indices.py:207-347", "src/climate_indices/eto.py:212-320"]}
{"id": "C118", "title": "Which runs of the SPI tool finish, and what a failed run leaves", "statement": "A run of the SPI tool on a usable grid of monthly precipitation (new process, parameters not loaded) processes gamma and then Pearson for every scale in the order of the arguments. It finishes exactly if, for each of these in turn, parameters can be fitted and the SPI computed at every place, from the series as the earlier scales left it. In any case exactly the outputs before the first one for which this is impossible are written, in that order and with the right values; the fitting parameters are saved only by a finished run; no other file is touched. In exact arithmetic, for precipitation that is not negative, it finishes exactly if no scale, place and calendar month has, in the record that remains when this scale is processed, at least four positive accumulations in the calibration years of which all but one are equal (in particular, whether a run finishes depends on the order of the scales).", "quantifier": "all grids, scales, numbers of workers, calibration years, precipitation, missing values, with and without a file of parameters to be saved", "why_tests_cant": "the condition quantifies over all places, scales and months and over every prefix of the run, with arrays that earlier scales have changed; the tests never run the tool", "anchors": ["src/climate_indices/__spi__.py:64-200", "src/climate_indices/__spi__.py:239-346", "src/climate_indices/__spi__.py:497-717", "src/climate_indices/__spi__.py:833-1260", "src/climate_indices/compute.py:638-715"]}
{"id": "C119", "title": "From the command line of the SPI tool to its files", "statement": "The documented command line of the SPI tool, for monthly precipitation that is not negative and can be fitted, makes the tool end without exception, write exactly the gamma and the Pearson file of every scale in the order of the scales and then the fitting parameters if asked for, change no other file, and each file holds at every place the published index of the precipitation record of that place (with months without precipitation counted as missing once scale 1 was processed).", "quantifier": "all command lines built from the documented options, all scales, calibration years inside the record, numbers of workers, grids, records and missing values, all special functions with the stated properties", "why_tests_cant": "a test runs the tool on one file; the statement joins option parsing, file preparation, the worker chunks, the in-place change of the shared array and the published formula for every input", "anchors": ["src/climate_indices/__spi__.py:497-716", "src/climate_indices/__spi__.py:1302-1445", "src/climate_indices/indices.py:122-235"]}
{"id": "C120", "title": "The two tools agree", "statement": "For the same grid of monthly or daily precipitation, calibration years, scale and distribution, the SPI files of the main tool and of the SPI tool hold the same values.", "quantifier": "all arithmetics, grids, scales, numbers of workers, runs of both tools that finish", "why_tests_cant": "the tools are tested separately, on different inputs; the disagreement needs a record with a month without precipitation and scale 1 among the scales", "anchors": ["src/climate_indices/__spi__.py:642-711", "src/climate_indices/__main__.py:1229-1302", "src/climate_indices/compute.py:683-686"]}
{"id": "C121", "title": "The SPI tool without calibration years", "statement": "The calibration years of the SPI tool are optional: a run that omits them ends without exception, or at least writes nothing when it fails.", "quantifier": "all command lines that omit the first year or the last year, all usable monthly grids and grids of the days of whole years, all arithmetics", "why_tests_cant": "the tests always give both years; the statement concerns every combination of missing years, loaded parameters and missing data", "anchors": ["src/climate_indices/__spi__.py:1350-1360", "src/climate_indices/__spi__.py:1137-1150", "src/climate_indices/__spi__.py:1218-1237", "src/climate_indices/compute.py:242-245", "src/climate_indices/compute.py:671-694"]}
{"id": "C122", "title": "Which daily runs finish", "statement": "A run of the main tool for SPI or the percentage of normal of daily precipitation of whole calendar years on a grid ends without exception exactly if the index of the years of 366 days can be computed at every place and every scale; a run that fails leaves exactly the files of the outputs before the first one that cannot be computed.", "quantifier": "all arithmetics and special functions, all grids, numbers of whole years, scales, numbers of workers; for the exact criterion all real precipitation with missing days", "why_tests_cant": "tests run one daily file that finishes; the criterion speaks about every place, scale and calendar day of every record", "anchors": ["src/climate_indices/__main__.py:580-610", "src/climate_indices/__main__.py:1055-1080", "src/climate_indices/__main__.py:1266-1304", "src/climate_indices/__main__.py:1602-1760", "src/climate_indices/utils.py:308-500", "src/climate_indices/lmoments.py:17-136", "src/climate_indices/indices.py:349-457"]}
{"id": "C123", "title": "Daily indices from the command line to the files", "statement": "For the documented command line for SPI or percentage of normal of daily precipitation of whole calendar years on a grid, the tool ends without exception, writes exactly the documented files, and the value in the file for each day is the published index for that calendar day, computed in years of 366 days in which 29 February of an ordinary year is the mean of its neighbours.", "quantifier": "all command lines for these indices, all grids, scales, calibration years inside the record, numbers of workers, all real non-negative precipitation with missing days that can be fitted", "why_tests_cant": "the statement connects argument parsing, chunking, the two calendars, the fit and the writing of files, for every record; the tests run one file with fixed arguments", "anchors": ["src/climate_indices/__main__.py:580-610", "src/climate_indices/__main__.py:1055-1080", "src/climate_indices/__main__.py:1266-1304", "src/climate_indices/__main__.py:1476-1760", "src/climate_indices/utils.py:308-500"]}
{"id": "C124", "title": "Which daily runs with a PET file finish", "statement": "A run of the main tool for SPEI or for all scaled indices of daily precipitation of whole calendar years on a grid and a daily PET file ends without exception exactly if every output can be computed for the years of 366 days at every place and scale; for SPEI this fails exactly if some calendar day has at least four accumulated water balances in the calibration years of which all but one are equal. A run that fails leaves exactly the files of the outputs before the first one that cannot be computed.", "quantifier": "all arithmetics and special functions, all grids, numbers of whole years, scales, numbers of workers; for the exact criterion all real precipitation and evapotranspiration with missing days and a balance not below -999.9995 mm", "why_tests_cant": "tests run no daily SPEI from files; the criterion speaks about every place, scale and calendar day of every pair of records", "anchors": ["src/climate_indices/__main__.py:580-610", "src/climate_indices/__main__.py:1055-1080", "src/climate_indices/__main__.py:1266-1304", "src/climate_indices/__main__.py:1602-1760", "src/climate_indices/utils.py:308-500", "src/climate_indices/indices.py:194-346"]}
{"id": "C125", "title": "Daily SPEI from the command line to the files", "statement": "For the documented command line for SPEI of daily precipitation of whole calendar years on a grid and a daily PET file, the tool ends without exception, writes exactly the documented files, and the value in the file for each day is the index of the accumulated water balance for that calendar day, computed in years of 366 days in which 29 February of an ordinary year is the mean of its neighbours.", "quantifier": "all command lines for SPEI with a PET file, all grids, scales, calibration years inside the record, numbers of workers, all real records with missing days that can be fitted", "why_tests_cant": "the statement connects argument parsing, the merging of two files, chunking, the two calendars, the fit and the writing of files, for every record", "anchors": ["src/climate_indices/__main__.py:580-610", "src/climate_indices/__main__.py:1055-1080", "src/climate_indices/__main__.py:1266-1304", "src/climate_indices/__main__.py:1602-1760", "src/climate_indices/utils.py:308-500", "src/climate_indices/indices.py:194-346", "src/climate_indices/__main__.py:1476-1600"]}
{"id": "C126", "title": "Which daily runs of the SPI tool finish", "statement": "A run of the SPI tool on a usable grid of daily precipitation of whole calendar years (new process, parameters not loaded) processes gamma and then Pearson for every scale in the order of the arguments, on years of 366 days. It finishes exactly if, for each of these in turn, parameters can be fitted and the SPI computed at every place, from the series as the earlier scales left it. In any case exactly the outputs before the first one for which this is impossible are written, in that order, with the values of every calendar day; the fitting parameters are saved only by a finished run; no other file is touched. In exact arithmetic, for precipitation that is not negative, it finishes exactly if no scale, place and calendar day has, in the record that remains when this scale is processed, at least four positive accumulations in the calibration years of which all but one are equal.", "quantifier": "all arithmetics and special functions, all grids, numbers of whole years, scales, numbers of workers; for the exact criterion all real precipitation that is not negative, with missing days", "why_tests_cant": "tests run the SPI tool neither on daily values nor to a failure; the criterion speaks about every place, scale and calendar day of every record", "anchors": ["src/climate_indices/__spi__.py:64-200", "src/climate_indices/__spi__.py:239-346", "src/climate_indices/__spi__.py:497-717", "src/climate_indices/__spi__.py:833-1260", "src/climate_indices/utils.py:308-500", "src/climate_indices/compute.py:638-715"]}
{"id": "C127", "title": "Daily SPI of the SPI tool from the command line to the files", "statement": "The documented command line of the SPI tool, for daily precipitation of whole calendar years that is not negative and can be fitted, makes the tool end without exception, write exactly the gamma and the Pearson file of every scale in the order of the scales and then the fitting parameters if asked for, change no other file, and each file holds at every place, day by day, the published index of the precipitation record of that place computed in years of 366 days (with days without precipitation counted as missing once scale 1 was processed).", "quantifier": "all command lines of the SPI tool for daily values with calibration years, all grids, scales, numbers of workers, all real records that are not negative, with missing days", "why_tests_cant": "the statement connects argument parsing, shared arrays, the two calendars, two fits and the writing of files, for every record", "anchors": ["src/climate_indices/__spi__.py:497-717", "src/climate_indices/__spi__.py:1302-1445", "src/climate_indices/utils.py:308-500", "src/climate_indices/indices.py:122-235"]}
{"id": "C128", "title": "Every run of the SPI tool with loaded parameters finishes", "statement": "Every run of the SPI tool on a usable grid (monthly values or the days of whole years) that loads the fitting parameters of all its scales (from 1 on) finishes, whatever the precipitation, the values of the parameters and the calibration years (which may be missing), writes exactly the gamma and the Pearson file of every scale in order, changes no other file, and holds at every place the SPI with the parameters of that place in the file. Scale 0, which the check of the arguments lets pass, does not finish.", "quantifier": "all grids, records (also with missing values), parameter files, scales, numbers of workers, calibration years, arithmetics", "why_tests_cant": "a run is one file of parameters and one record; that no content of either can stop the run after its arguments were accepted is a statement about all of them", "anchors": ["src/climate_indices/__spi__.py:497-716", "src/climate_indices/__spi__.py:1302-1445", "src/climate_indices/indices.py:122-235"]}
{"id": "C129", "title": "Saved parameters can be loaded, and give the same index", "statement": "If a command of the SPI tool saves its fitting parameters and ends without exception, the same command loading them (in a new process, with any or no calibration years, another output name, another number of workers) ends without exception too, and its values are those of the first command, except for gamma with scale 1 at places with zeros.", "quantifier": "all grids (monthly, or days of whole years), records, lists of scales from 1 on, calibration years, output names, numbers of workers, arithmetics", "why_tests_cant": "it relates two runs of the program through a file for every record and every list of scales", "anchors": ["src/climate_indices/__spi__.py:497-716", "src/climate_indices/__spi__.py:1302-1445"]}
{"id": "C130", "title": "Gamma parameters in float64 arithmetic", "statement": "In float64 the product of the fitted shape and scale of a calendar step is the mean of its positive calibration amounts up to a relative error of c + 2 units 2^-52 (c calibration years), whatever the errors of np.log and np.sqrt. The shape itself is not protected: thirty equal amounts 5.0 give a negative shape and scale, fifty equal amounts 3.0 a finite positive one, for every logarithm correct to one unit in the last place (in exact arithmetic both are infinite, C23).", "quantifier": "all precipitation data (missing, zero, 10^-100 to 10^100), all numbers of years up to 2^40, all logarithm and square root functions", "why_tests_cant": "Rounding errors depend on every value and on the library's log; tests compare a few stations with a tolerance.", "anchors": ["src/climate_indices/compute.py:638-715"]}
{"id": "C131", "title": "The soil holds no more water than its capacity", "statement": "In the Palmer water balance the two soil layers together never hold more water than the available water capacity (AWC) passed to pdsi, and the AWC enters the result. (True from one inch upwards. False below: the upper layer always holds one inch, so a soil of any smaller capacity holds one inch after every wet month, and pdsi returns the same values for all capacities of at most one inch.)", "quantifier": "all AWC, all records of any length (missing and infinite values included for the equality of the results), exact arithmetic and float64", "why_tests_cant": "Shallow soils are rare in test data; that all results agree for two different capacities is a statement about every record", "anchors": ["src/climate_indices/palmer.py:15-27", "src/climate_indices/palmer.py:30-132", "src/climate_indices/palmer.py:189-241"]}
{"id": "C132", "title": "Gamma parameters are accurate in float64 unless the amounts are almost equal", "statement": "In IEEE float64 arithmetic with a logarithm of relative error at most 2^-50 and a square root of relative error at most 2^-52, gamma_parameters computes, for a calendar step whose amounts have logarithms of size at most L and c calibration years, Thom's statistic up to an absolute error of e = (L+1)(c+7)/2^51; whenever the statistic of the sample is at least 8e, the fitted shape and scale are the published estimates up to relative errors of 2e/gap + 2^-48 and 4e/gap + (c+2)/2^51 + 2^-47.", "quantifier": "all float64 precipitation records (missing, zero, or 10^-100..10^100), all summation orders, all calibration periods up to 2^40 years, all calendar steps, all library logarithms and square roots within the stated accuracy", "why_tests_cant": "the error of a float64 computation depends on the data, the order of summation and the library; tests compare with stored values at one tolerance and never see the amplification by a small statistic", "anchors": ["src/climate_indices/compute.py:638-715"]}
{"id": "C133", "title": "Day lengths in float64: the validity checks never refuse a latitude between the poles, and the hours are accurate", "statement": "In IEEE float64 arithmetic, for every latitude of at most 90 degrees, the monthly mean day lengths are twelve finite numbers between 0 and 24 hours (up to 2^-41), none of the range checks on latitude, declination and sunset hour angle (whose limits are themselves computed and rounded) raises, and pet therefore returns one value per month for every temperature record and every latitude between the poles; up to 60 degrees each of the twelve means is within 2^-40 hours of the astronomical formula averaged over the days of the month.", "quantifier": "all float64 latitudes, leap and common years, all temperature records including NaN and infinities, all trigonometric libraries within the stated bounds (and, for the accuracy, within 2^-50)", "why_tests_cant": "the checks compare rounded numbers with rounded limits, so a spurious ValueError would hit single latitudes; sample latitudes in tests cannot exclude it, and the accuracy depends on the library", "anchors": ["src/climate_indices/eto.py:47-193", "src/climate_indices/indices.py:459-511"]}
{"id": "C134", "title": "Thornthwaite evapotranspiration in float64 is aligned, non-negative and accurate", "statement": "In IEEE float64 arithmetic, for every record of monthly temperatures of up to 2^20 years (values at most 40 degrees, missing, or at or below freezing, and not between 0 and 0.001 degrees) with a value of every calendar month and at least one month above freezing, and every latitude up to 60 degrees, pet returns one value per month: NaN for missing months, exactly 0 for months at or below freezing, and otherwise a non-negative number whose relative distance to Thornthwaite's formula is at most (S*(76N+1518)+2061)/2^51 with S = a*(1+|log(10T/I)|), and at most (N+20)/2^36 in all cases.", "quantifier": "all such records, latitudes and start years, all libraries whose trigonometric functions are accurate to 2^-50 and whose pow has relative error 2^-50", "why_tests_cant": "the power amplifies the rounding errors of means and heat index by an exponent that depends on the data; tests compare with stored values up to tolerances and cannot bound the amplification", "anchors": ["src/climate_indices/eto.py:196-288", "src/climate_indices/indices.py:459-511"]}
{"id": "C135", "title": "The gamma SPI in float64 is the published index of parameters and a probability next to the exact ones", "statement": "In IEEE float64 arithmetic, for every precipitation record, scale and calibration period inside the record: at a step with a positive accumulation the gamma SPI is, up to the error of the normal quantile and 2^-50, the clamped quantile of a probability P between 0 and 1; P differs by at most the error of the distribution function plus 3/2^51 from q + (1-q) G(v, alpha, beta) with the share q of zeros, and alpha and beta are Thom's estimates of the calibration sample up to the relative errors of C132. The mixed probability never exceeds 1 by rounding, so no NaN arises.", "quantifier": "all records of missing, zero and positive amounts (between 1e-50 and 1e50) of up to 2^40 steps, all scales up to the length, monthly and daily, all calibration periods inside the record, all libraries with stated accuracy; samples whose statistic exceeds the rounding error", "why_tests_cant": "stored expectations cannot tell rounding from error, and a probability of 1 + 2^-52, which would give NaN, depends on single rounding steps of the share of zeros", "anchors": ["src/climate_indices/compute.py:638-831", "src/climate_indices/indices.py:69-204"]}
{"id": "C136", "title": "The gamma SPEI in float64 is the standardised water balance up to explicit errors", "statement": "In IEEE float64 arithmetic, for precipitation up to 1e5 and evapotranspiration up to 999 per step: the water balance plus 1000 that the code accumulates is at least 1 and within 2^-34 of the exact one at every step; spei returns one value per step; and at every step with an accumulation the value is, up to the error of the normal quantile and 2^-50, the clamped quantile of a probability between 0 and 1 that differs by at most the error of the distribution function plus 3/2^51 from the gamma distribution function with Thom's estimates of the accumulated balances of the calibration years, up to the relative errors of C132.", "quantifier": "all such pairs of records of up to 2^40 steps with missing values, all scales up to the length, monthly and daily, all calibration periods inside the record, all libraries with stated accuracy; samples whose statistic exceeds the rounding error", "why_tests_cant": "cancellation in precipitation minus evapotranspiration and the added 1000 lose digits at every step; stored expectations compare up to tolerances on one data set", "anchors": ["src/climate_indices/indices.py:207-346", "src/climate_indices/compute.py:638-831"]}
{"id": "C137", "title": "Unit conversions are accurate in float64", "statement": "In IEEE float64 arithmetic, every accepted unit string of precipitation or PET turns a value of up to 2^1000 units into millimetres with relative error at most 2^-51, and every accepted unit string of temperature turns the reading of a thermometer of that scale, between -100 and 100 degrees Celsius, into degrees Celsius up to 2^-42 degrees. Missing values stay missing, entry by entry.", "quantifier": "all unit strings of the tables, all arrays of such values", "why_tests_cant": "tests convert a few literals; the route through Kelvin loses digits that only a bound on every intermediate rounding shows to be harmless", "anchors": ["src/climate_indices/__main__.py:756-798"]}
{"id": "C138", "title": "From the command line to the PET file in float64", "statement": "In IEEE float64 arithmetic, the documented command line for PET from monthly temperature, for grids and divisions strictly between the poles, any file names, numbers of workers and option styles, and any temperatures including missing and infinite ones: the tool ends without exception, writes exactly BASE_pet_thornthwaite.nc, changes no other file, and at every place the file holds one value per month, which (under the conditions of C134) is missing where the temperature is, exactly 0 at or below freezing, never negative and within a relative error of (N+20)/2^36 of Thornthwaite's formula for N years.", "quantifier": "all such runs, files, grids, worker numbers, and libraries with trigonometric functions accurate to 2^-50 and pow with relative error 2^-50", "why_tests_cant": "the chain from argument parsing through workers to rounding has unboundedly many configurations; tests run a handful of them and compare with stored values", "anchors": ["src/climate_indices/__main__.py:756-1500", "src/climate_indices/eto.py:196-288", "src/climate_indices/indices.py:459-511"]}
{"id": "C139", "title": "From the command line to the SPI and PNP files in float64", "statement": "In IEEE float64 arithmetic, the documented command line for SPI of monthly precipitation ends without exception exactly if the Pearson index can be computed at every place; then it has written two files per scale, changed no other file, and at every place the gamma file holds the gamma SPI in the sense of C135, with accumulations within k units of 2^-52 of the exact moving sums. The command line for the percentage of normal always ends, and its files hold the percentages within the error of C98.", "quantifier": "all such runs, files, grids, scales, calibration years inside the record, worker numbers, and accurate libraries", "why_tests_cant": "as for C138", "anchors": ["src/climate_indices/__main__.py:756-1500", "src/climate_indices/indices.py:69-204", "src/climate_indices/compute.py:760-831"]}
{"id": "C140", "title": "SPEI in float64, from the command line to the files", "statement": "In IEEE float64 arithmetic, the documented command line for SPEI from monthly precipitation and either a PET file or temperature ends without exception exactly if the Pearson index can be computed at every place and scale; it has then written exactly two files per scale and changed no other file, and at every place the gamma files hold, next to each accumulated balance (itself within an explicit error of the moving sum of precipitation minus evapotranspiration plus 1000), the clamped normal quantile of a probability within an explicit error of the gamma probability with parameters within an explicit error of Thom's estimates.", "quantifier": "all files, variable names, layouts, scales, calibration years inside the record, numbers of workers, precipitation and evapotranspiration values (missing included; the value bounds are for amounts as in C136), all libraries within stated errors", "why_tests_cant": "A test runs one file with one library; it cannot bound the error of the values that reach the files for all records, and a wrong pairing of places, files or calibration years shows only on data where it matters.", "anchors": ["src/climate_indices/__main__.py:756-1500", "src/climate_indices/indices.py:207-346", "src/climate_indices/compute.py:760-831"]}
{"id": "C141", "title": "Pearson index where no distribution is fitted", "statement": "Where the calibration years have fewer than four positive accumulations of a calendar step, so that no Pearson distribution can be fitted, the Pearson SPI of that step is missing (NaN) at every value; it is never a number.", "quantifier": "all records with missing values, scales, periodicities, calibration periods inside the record, calendar steps", "why_tests_cant": "Deserts with no rain at all in a calendar step, or with three wet years, are absent from the fixtures; the zero parameters that stand for no fit look like ordinary parameters, and the number they produce (-3.09) looks like an ordinary index value.", "anchors": ["src/climate_indices/compute.py:248-258", "src/climate_indices/compute.py:462-549", "src/climate_indices/indices.py:69-204"]}
{"id": "C142", "title": "Records of at most three years are never refused", "statement": "For any record of at most three years (missing, infinite, negative or zero values included), either distribution, any scale up to its length and any calibration years, SPI and SPEI end without exception and return one value per input value.", "quantifier": "all arithmetics, libraries, records of at most three years, scales, distributions, periodicities, calibration years", "why_tests_cant": "The Pearson fit refuses many records with an exception; that short ones always pass because of the four-value threshold is a statement about all values, and the fixtures have records of more than a century.", "anchors": ["src/climate_indices/compute.py:248-313", "src/climate_indices/indices.py:69-346"]}
{"id": "C143", "title": "Percentage of normal follows the amount of rain", "statement": "Within a calendar step a larger sum never has the smaller percentage of normal. More rain in one month, all else equal, never lowers the percentage of normal of a sum that contains the month, never raises that of another sum, and makes no value missing.", "quantifier": "all precipitation records with gaps, scales, calibration periods within the record, months and amounts", "why_tests_cant": "The normal contains the changed month as well, so that the result is a race between numerator and denominator; a test sees single amounts. The claim is false for scales of more than a year and, by one unit in the last place, in float64.", "anchors": ["src/climate_indices/indices.py:349-456"]}
{"id": "C144", "title": "More rain outside the calibration years never lowers an SPI", "statement": "For two records of the same length whose accumulated values agree in the calibration years, the SPI of a time with the larger accumulated value is not the smaller one.", "quantifier": "all records, scales, distributions, calibration periods within the record, times; any monotone rounded arithmetic and monotone special functions", "why_tests_cant": "A test compares few records; the claim is about every pair of records. It is false for gamma when a dry month outside the calibration years becomes wet, because the probability of a dry month is taken from the whole record.", "anchors": ["src/climate_indices/compute.py:552-831", "src/climate_indices/indices.py:62-206"]}
{"id": "C145", "title": "Percentage of normal does not depend on the unit in float64", "statement": "In IEEE float64 arithmetic, for precipitation in any unit the tool accepts, the percentage of normal computed after the conversion to millimetres differs from the exact percentage of normal of the amounts as given by at most 3(s+2)+2Y+3 units of 2^-52 relative to it (s time steps added up, Y calibration years) and is missing exactly where that is. The same holds for the files that a complete run of the main tool writes from a monthly file in such a unit.", "quantifier": "all records of amounts that are missing, zero or between 10^-100 and 10^98, all accepted units, all orders of addition, all scales and calibration periods within the record, all grids and divisions, all file contents, numbers of workers and option styles", "why_tests_cant": "The factor 25.4 is no binary fraction, so converted data differ from the original in the last bit and results in two units are never compared bit for bit; a test uses one data set and a loose tolerance.", "anchors": ["src/climate_indices/__main__.py:756-766", "src/climate_indices/indices.py:349-456", "src/climate_indices/compute.py:115-160"]}
{"id": "C146", "title": "The SPI tool in float64, from the command line to the gamma files", "statement": "In IEEE float64 arithmetic, the documented command line of the SPI tool for monthly precipitation ends without exception exactly if for every scale the Pearson index can be computed at every place from what is left of the record; then two files per scale are written, gamma before Pearson, and the parameters if asked for. Other files are never changed. Whether or not the run fails later, the gamma file of every scale that is reached holds at every place the gamma SPI of what is left of the record (after scale 1 the zeros of a record of whole years count as missing): moving sums up to k units of 2^-52, parameters next to Thom's, and the clamped normal quantile of a probability next to the mixed one.", "quantifier": "all grids, file contents, scales from 1 to the length of the record, calibration years inside the record, orders of addition, numbers of workers and option styles, all logarithm, square root, gamma and normal functions within the stated error", "why_tests_cant": "The tool changes its only copy of the record while it runs, so a result depends on the scales before it; tests run one scale on one data set, and compare with stored float64 numbers.", "anchors": ["src/climate_indices/__spi__.py:497-716", "src/climate_indices/__spi__.py:1302-1445", "src/climate_indices/indices.py:122-235", "src/climate_indices/compute.py:638-831"]}
{"id": "C147", "title": "Daily percentage of normal in float64, from the file to the file", "statement": "In IEEE float64 arithmetic, a complete run of the main tool for the percentage of normal from daily precipitation of whole calendar years, in any accepted unit, ends without exception, writes one file per scale, changes no other file, and every value differs by at most 3(s+4)+2C+3 units of 2^-52, relative to it, from the exact percentage of normal of the amounts in the input file (s days added up, C calibration years; computed in years of 366 days with the exact mean of 28 February and 1 March for the missing day) and is missing exactly where that is.", "quantifier": "all grids and records of amounts that are missing, zero or between 2*10^-100 and 10^98, all first years and numbers of years from year 1 to 9999, all accepted units, all orders of addition, all scales and calibration periods within the record, all numbers of workers and option styles", "why_tests_cant": "Conversion, mean for 29 February, accumulation, mean and quotient all round; a test compares one record with a stored array and a loose tolerance.", "anchors": ["src/climate_indices/__main__.py:580-610", "src/climate_indices/__main__.py:756-766", "src/climate_indices/__main__.py:1055-1080", "src/climate_indices/__main__.py:1266-1304", "src/climate_indices/__main__.py:1476-1760", "src/climate_indices/utils.py:308-500", "src/climate_indices/indices.py:349-456", "src/climate_indices/compute.py:115-160"]}
{"id": "C148", "title": "Daily SPI in float64, from the file to the file", "statement": "In IEEE float64 arithmetic, a complete run of the main tool for SPI from daily precipitation of whole calendar years ends without exception exactly if the Pearson index can be computed at every place; then it has written exactly two files per scale and changed no other file. In the gamma files, computed in years of 366 days with the mean of 28 February and 1 March for the missing day, the accumulations are exact up to k+3 units of 2^-52, and where the accumulation is positive the value is the clamped normal quantile of a probability within eta+3/2^51 of the mixed gamma probability for parameters next to Thom's estimates for that calendar day.", "quantifier": "all grids and records of amounts that are missing, zero or between 4*10^-50 and 10^50/4, all first years and numbers of years from year 1 to 9999, all accepted units, all orders of addition, all scales and calibration periods within the record, all numbers of workers and option styles, all library functions within their accuracy", "why_tests_cant": "The mean for 29 February, the accumulation, the fit and the mixture all round; a test compares one record with stored values, most of them monthly.", "anchors": ["src/climate_indices/__main__.py:580-610", "src/climate_indices/__main__.py:756-766", "src/climate_indices/__main__.py:1055-1080", "src/climate_indices/__main__.py:1266-1304", "src/climate_indices/__main__.py:1476-1760", "src/climate_indices/utils.py:308-500"]}
{"id": "C149", "title": "SPI tool on daily data in float64, from the command line to the gamma files", "statement": "In IEEE float64 arithmetic, the documented command line of the SPI tool for daily precipitation of whole calendar years ends without exception exactly if for every scale the Pearson index can be computed at every place from what is left of the record (after scale 1, days without precipitation count as missing); it has then written two files per scale, gamma before Pearson, and then the parameters if asked for, and never changed another file. In any case, also when the tool fails later, the gamma file of every scale that is reached holds the gamma SPI of what is left, in years of 366 days with the mean of 28 February and 1 March for the missing day: accumulations exact up to k+3 units of 2^-52, and where the accumulation is positive the clamped normal quantile of a probability within eta+3/2^51 of the mixed gamma probability for parameters next to Thom's estimates for that calendar day.", "quantifier": "all grids and records of amounts that are missing, zero or between 4*10^-50 and 10^50/4, all first years and numbers of years from year 1 to 9999, all accepted units, all orders of addition, all lists of scales and calibration periods within the record, all numbers of workers and option styles, all library functions within their accuracy", "why_tests_cant": "The result for a scale depends on which scales were processed before it, and every step rounds; a test runs one command on one record and, for a failing run, looks at no file.", "anchors": ["src/climate_indices/__spi__.py:497-717", "src/climate_indices/__spi__.py:1302-1445", "src/climate_indices/utils.py:308-500", "src/climate_indices/indices.py:122-235", "src/climate_indices/compute.py:638-831"]}
