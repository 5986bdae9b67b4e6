{
 "claims": [
  {
   "property": "C01",
   "status": "proved",
   "theorems": [
    "CI.Props.C01_roundtrip"
   ],
   "note": "All start years and numbers of whole years with dates in datetime's range."
  },
  {
   "property": "C02",
   "status": "proved",
   "theorems": [
    "CI.Props.C02_layout",
    "CI.Props.C02_slots_cover",
    "CI.Props.C02_rejects_nd"
   ],
   "note": "Whole years; layout, slot coverage, rejection of non 1-D arrays."
  },
  {
   "property": "C03",
   "status": "partial",
   "theorems": [
    "CI.Props.C03_announced",
    "CI.Props.C03_all_lengths",
    "CI.Props.C03_length_partial",
    "CI.Props.C03_converted_length",
    "CI.Props.C03_fails"
   ],
   "note": "False in the code for records that end part-way through a year: C03_fails; equality proved for whole years; the announced and the actual length are characterised for all lengths."
  },
  {
   "property": "C04",
   "status": "partial",
   "theorems": [
    "CI.Props.C04_partial_year_partial",
    "CI.Props.C04_fails_leap",
    "CI.Props.C04_fails_leap_one",
    "CI.Props.C04_fails_short",
    "CI.Props.C04_fails_59"
   ],
   "note": "False in the code for leap final years and for final years with fewer than 60 days (exceptions): C04_fails_*; proved for non-leap final years with at least 60 days."
  },
  {
   "property": "C05",
   "status": "proved",
   "theorems": [
    "CI.Props.C05_exact",
    "CI.Props.C05_increasing",
    "CI.Props.C05_bad_units"
   ],
   "note": "Independent day-count specification; negative/invalid start months rejected."
  },
  {
   "property": "C06",
   "status": "proved",
   "theorems": [
    "CI.Props.C06_layout",
    "CI.Props.C06_two_d",
    "CI.Props.C06_rejects"
   ],
   "note": ""
  },
  {
   "property": "C07",
   "status": "partial",
   "theorems": [
    "CI.Props.C07_windows_partial",
    "CI.Props.C07_exact_partial",
    "CI.Props.C07_fails",
    "CI.Props.C07_bad_scale"
   ],
   "note": "False in the code for scales larger than the array: C07_fails gives the exact result (2*scale-len values, the first scale-1 missing, the others the sum of the whole record); proved for 1 <= scale <= length; zero and negative scales raise ValueError (C07_bad_scale)."
  },
  {
   "property": "C08",
   "status": "proved",
   "theorems": [
    "CI.Props.C08_counts",
    "CI.Props.C08_ordered",
    "CI.Props.C08_perm"
   ],
   "note": ""
  },
  {
   "property": "C09",
   "status": "proved",
   "theorems": [
    "CI.Props.C09_spi",
    "CI.Props.C09_spei"
   ],
   "note": "SPI and SPEI, generic floats, arbitrary special functions and fitting parameters."
  },
  {
   "property": "C10",
   "status": "partial",
   "theorems": [
    "CI.Props.C10_pearson_exact",
    "CI.Props.C10_bad_shape",
    "CI.Props.C10_all_missing",
    "CI.Props.C10_bad_args",
    "CI.Props.C10_gamma",
    "CI.Props.C10_pearson_partial",
    "CI.Props.C10_fails_pearson",
    "CI.Props.C10_size"
   ],
   "note": "Proved for gamma; for Pearson the code raises ValueError on degenerate samples (C10_fails_pearson), C10_pearson_partial states one value per input or ValueError, and C10_pearson_exact says for which non-negative records it is ValueError."
  },
  {
   "property": "C11",
   "status": "proved",
   "theorems": [
    "CI.Props.C11_spei",
    "CI.Props.C11_spei_no_pet",
    "CI.Props.C11_missing"
   ],
   "note": "Windows shorter than the scale and windows with a missing value; the same for the SPEI, with missing values of precipitation or evapotranspiration (C11_spei); no SPEI anywhere if one of the series is entirely missing (C11_spei_no_pet)."
  },
  {
   "property": "C12",
   "status": "proved",
   "theorems": [
    "CI.Props.C12_columns",
    "CI.Props.C12_spi"
   ],
   "note": "Transform level (any fitting parameters) and spi level."
  },
  {
   "property": "C13",
   "status": "partial",
   "theorems": [
    "CI.Props.C13_every_fails",
    "CI.Props.C13_pearson_params",
    "CI.Props.C13_pearson_index",
    "CI.Props.C13_pearson_spi",
    "CI.Props.C13_gamma_partial",
    "CI.Props.C13_fails"
   ],
   "note": "Proved for Pearson; false for gamma (probability of zero is taken over the whole record): C13_every_fails (any two records with the same calibration years and different numbers of dry accumulations: the index of every wet step of the calendar step differs unless it is at the limit), C13_fails (a case); C13_gamma_partial gives what holds."
  },
  {
   "property": "C14",
   "status": "partial",
   "theorems": [
    "CI.Props.C14_gamma_within",
    "CI.Props.C14_pearson_within",
    "CI.Props.C14_outside_partial",
    "CI.Props.C14_one_after",
    "CI.Props.C14_before",
    "CI.Props.C14_fails_one_after",
    "CI.Props.C14_fails_before"
   ],
   "note": "In-range periods use exactly the requested years. Out-of-range periods use all years (C14_outside_partial), except a period that ends exactly one year past the record (C14_one_after: the years from the start to the end of the record are used) and a reversed period that ends two or more years before the record (C14_before: the end wraps around). C14_fails_* show that both differ from the fit of all years."
  },
  {
   "property": "C15",
   "status": "partial",
   "theorems": [
    "CI.Props.C15_gamma",
    "CI.Props.C15_pearson_partial",
    "CI.Props.C15_fails_pearson",
    "CI.Props.C15_fails_pearson_general"
   ],
   "note": "Gamma proved for all inputs; Pearson false in general (values below the lower bound map to a fixed low probability / trace values): C15_fails_pearson*; C15_pearson_partial covers values inside the bound."
  },
  {
   "property": "C16",
   "status": "partial",
   "theorems": [
    "CI.Props.C16_fails_gamma",
    "CI.Props.C16_pearson"
   ],
   "note": "Proved for Pearson (exact arithmetic, ordered fields with nan/inf); false for gamma for every input (zeros are turned into NaN before the transform): C16_fails_gamma."
  },
  {
   "property": "C17",
   "status": "partial",
   "theorems": [
    "CI.Props.C17_kept_fails",
    "CI.Props.C17_spei_kept_fails",
    "CI.Props.C17_pdsi_partial",
    "CI.Props.C17_spi_partial",
    "CI.Props.C17_spei_partial",
    "CI.Props.C17_fails"
   ],
   "note": "Proved for spi and spei without missing values; false with a missing value because np.amin is NaN and nothing is clipped: C17_kept_fails (every record with a missing value and a number: the accumulated values are sums of the raw record, in any arithmetic), C17_spei_kept_fails (a negative amount then acts like additional PET), C17_fails (a concrete record whose SPI differs). The pdsi clause: C17_pdsi_partial, same restriction."
  },
  {
   "property": "C18",
   "status": "proved",
   "theorems": [
    "CI.Props.C18_given",
    "CI.Props.C18_gamma",
    "CI.Props.C18_pearson"
   ],
   "note": "Gamma and Pearson, exact equality, generic floats. C18_given: the value at each position for given gamma parameters (C27_all for Pearson)."
  },
  {
   "property": "C19",
   "status": "partial",
   "theorems": [
    "CI.Props.C19_spi_partial",
    "CI.Props.C19_fit_partial",
    "CI.Props.C19_eto_partial",
    "CI.Props.C19_pet_partial",
    "CI.Props.C19_sequence_partial",
    "CI.Props.C19_pet_answers",
    "CI.Props.C19_spi_fails",
    "CI.Props.C19_eto_fails",
    "CI.Props.C19_answers_fails"
   ],
   "note": "False as stated (C19_spi_fails, C19_eto_fails, C19_answers_fails). Proved: the exact effect of every call on every buffer, and that every sequence of calls that find no value to overwrite keeps all arrays and answers; repeated pet calls always give the same answers."
  },
  {
   "property": "C20",
   "status": "proved",
   "theorems": [
    "CI.Props.C20_difference",
    "CI.Props.C20_size",
    "CI.Props.C20_missing"
   ],
   "note": "Element-wise difference determines the result; size mismatch raises ValueError; an all-missing precipitation array is returned unchanged."
  },
  {
   "property": "C21",
   "status": "partial",
   "theorems": [
    "CI.Props.C21_old_keys",
    "CI.Props.C21_new_wins",
    "CI.Props.C21_lookup",
    "CI.Props.C21_fails_none",
    "CI.Props.C21_fails_spi",
    "CI.Props.C21_idempotent"
   ],
   "note": "Proved for spei with array values; false for None values (C21_fails_none) and for spi, which does not normalise (C21_fails_spi)."
  },
  {
   "property": "C22",
   "status": "proved",
   "theorems": [
    "CI.Props.C22_parameters",
    "CI.Props.C22_spi"
   ],
   "note": "Exact real arithmetic; log, sqrt are the real functions and the gamma distribution function depends on x and scale through x/scale (ExtReal, instance realExt). C22_spi covers 1-D and 2-D input, any scale, also raising calls."
  },
  {
   "property": "C23",
   "status": "proved",
   "theorems": [
    "CI.Props.C23_parameters",
    "CI.Props.C23_equal_index"
   ],
   "note": "Exact real arithmetic. Equal positive values give shape +inf and scale 0; that the index is then missing uses scipy's rule that a distribution with scale 0 evaluates to NaN (hypothesis hscale, true of realExt)."
  },
  {
   "property": "C24",
   "status": "proved",
   "theorems": [
    "CI.Props.C24_lmoments",
    "CI.Props.C24_fit",
    "CI.Props.C24_few",
    "CI.Props.C24_loc",
    "CI.Props.C24_scale"
   ],
   "note": "Exact real arithmetic. C24_lmoments: L-scale >= 0, |L-skewness| <= 1. C24_fit: ValueError exactly when all values but one coincide, otherwise finite with positive scale. C24_loc, C24_scale tie location and L-scale to the mean and to Gini's mean difference."
  },
  {
   "property": "C25",
   "status": "proved",
   "theorems": [
    "CI.Props.C25_order",
    "CI.Props.C25_affine"
   ],
   "note": "C25_order for all samples (also infinite values); C25_affine for finite or missing values, exact real arithmetic."
  },
  {
   "property": "C26",
   "status": "partial",
   "theorems": [
    "CI.Props.C26_partial",
    "CI.Props.C26_fails"
   ],
   "note": "False as stated: C26_fails (four years of constant precipitation raise). C26_partial gives the exact condition under which ValueError is raised and finiteness otherwise."
  },
  {
   "property": "C27",
   "status": "proved",
   "theorems": [
    "CI.Props.C27_some",
    "CI.Props.C27_none",
    "CI.Props.C27_all"
   ],
   "note": "All-or-nothing rule, computed = given the computed, given parameters used exactly."
  },
  {
   "property": "C28",
   "status": "proved",
   "theorems": [
    "CI.Props.C28_ratio",
    "CI.Props.C28_average",
    "CI.Props.C28_unit"
   ],
   "note": "Ratio for every float type; average-one and unit independence in exact arithmetic."
  },
  {
   "property": "C29",
   "status": "partial",
   "theorems": [
    "CI.Props.C29_rejects",
    "CI.Props.C29_span_partial",
    "CI.Props.C29_fails_daily",
    "CI.Props.C29_fails_reversed",
    "CI.Props.C29_exact",
    "CI.Props.C29_after_fails",
    "CI.Props.C29_reversed_fails"
   ],
   "note": "Exactly which requests are accepted, and ValueError in every other case (C29_exact). Missing/small scales, early starts and monthly over-long periods rejected; false for daily data, where years are counted with 12 steps (C29_fails_daily); false for periods after the record (C29_after_fails) and for reversed periods (C29_reversed_fails): accepted, and every value of the result is missing."
  },
  {
   "property": "C30",
   "status": "partial",
   "theorems": [
    "CI.Props.C30_formula",
    "CI.Props.C30_partial",
    "CI.Props.C30_frozen_fails",
    "CI.Props.C30_gap_fails"
   ],
   "note": "C30_formula and C30_partial need a value for each calendar month and one month above freezing. Without these the claim is false for every record: C30_frozen_fails, C30_gap_fails. Exact real arithmetic."
  },
  {
   "property": "C31",
   "status": "partial",
   "theorems": [
    "CI.Props.C31_partial",
    "CI.Props.C31_fails"
   ],
   "note": "True strictly between the poles (C31_partial, which also gives the ValueError for everything else); false at -90 and 90 (C31_fails), which the documentation includes."
  },
  {
   "property": "C32",
   "status": "proved",
   "theorems": [
    "CI.Props.C32_range",
    "CI.Props.C32_equator",
    "CI.Props.C32_hemispheres"
   ],
   "note": "Exact real arithmetic, latitudes strictly between the poles (the only ones that reach the code, see C31)."
  },
  {
   "property": "C33",
   "status": "partial",
   "theorems": [
    "CI.Props.C33_rejects",
    "CI.Props.C33_partial",
    "CI.Props.C33_dry_february",
    "CI.Props.C33_fails"
   ],
   "note": "Bounds 100/12..100 and rejection proved; the value is not Oliver's index because of the month table (C33_fails); C33_dry_february gives the cases where it is."
  },
  {
   "property": "C34",
   "status": "partial",
   "theorems": [
    "CI.Props.C34_partial",
    "CI.Props.C34_fails",
    "CI.Props.C34_single_fails",
    "CI.Props.C34_never"
   ],
   "note": "False: the size test compares a size with an array, so every array of more than one value raises ValueError (C34_fails), and single values raise too (C34_single_fails). C34_partial proves that the code after the size test is the Hargreaves equation for years x 366 arrays. C34_never: for well-formed arrays the function returns nothing but the empty array, and only for empty mean temperatures."
  },
  {
   "property": "C35",
   "status": "proved",
   "theorems": [
    "CI.Props.C35_conserves"
   ],
   "note": "Exact arithmetic (ordered field): for every month of every history, whatever follows, P = ET + RO + change of storage, and R - L = change."
  },
  {
   "property": "C36",
   "status": "proved",
   "theorems": [
    "CI.Props.C36_capacity"
   ],
   "note": "Exact arithmetic; AWC > 0, non-negative P and PET; any continuation of the record."
  },
  {
   "property": "C37",
   "status": "proved",
   "theorems": [
    "CI.Props.C37_terms",
    "CI.Props.C37_coefficients"
   ],
   "note": "Exact arithmetic; terms for every month, coefficients for every calendar month of a calibration period."
  },
  {
   "property": "C38",
   "status": "partial",
   "theorems": [
    "CI.Props.C38_partial",
    "CI.Props.C38_zindex_partial",
    "CI.Props.C38_fails"
   ],
   "note": "True (C38_partial, C38_zindex_partial) for a calendar month whose calibration-period soil moisture sum is non-zero or which has no runoff; false otherwise (C38_fails: the soil is empty at the start of that month in every calibration year and there is runoff, departure 7). Exact arithmetic."
  },
  {
   "property": "C39",
   "status": "partial",
   "theorems": [
    "CI.Props.C39_fails_float64",
    "CI.Props.C39_signs",
    "CI.Props.C39_partial",
    "CI.Props.C39_fails"
   ],
   "note": "C39_signs proves the sign clause for all histories; the probability range 0..100 is false (C39_fails: below -300); C39_partial gives the range under the stated condition. C39_fails_float64: the counterexample also occurs in binary64 arithmetic."
  },
  {
   "property": "C40",
   "status": "proved",
   "theorems": [
    "CI.Props.C40_lengths",
    "CI.Props.C40_assigned",
    "CI.Props.C40_finite"
   ],
   "note": "C40_assigned, C40_lengths (any floats), C40_finite (finite Z gives finite indices, exact arithmetic)."
  },
  {
   "property": "C41",
   "status": "partial",
   "theorems": [
    "CI.Props.C41_fails_float64",
    "CI.Props.C41_pdsi_fails",
    "CI.Props.C41_partial",
    "CI.Props.C41_short",
    "CI.Props.C41_fails"
   ],
   "note": "C41_partial: exact characterisation of failure (some proper prefix leaves 40 months undecided, IndexError); C41_fails, C41_pdsi_fails: witnesses on Z values and on a complete eight-year record; C41_short: at most 40 months never fail. C41_fails_float64: the counterexample also occurs in binary64 arithmetic."
  },
  {
   "property": "C42",
   "status": "partial",
   "theorems": [
    "CI.Props.C42_fails_float64",
    "CI.Props.C42_partial",
    "CI.Props.C42_fails"
   ],
   "note": "The spell phase never changes a resolved month (C42_partial); the final clean-up does (C42_fails). C42_fails_float64: the counterexample also occurs in binary64 arithmetic."
  },
  {
   "property": "C43",
   "status": "partial",
   "theorems": [
    "CI.Props.C43_during_spell",
    "CI.Props.C43_during_spell_error",
    "CI.Props.C43_outside_spell",
    "CI.Props.C43_collapse",
    "CI.Props.C43_zindex_partial",
    "CI.Props.C43_before",
    "CI.Props.C43_fails"
   ],
   "note": "False: C43_collapse (a missing month in a calibration year makes all Z missing and all PDSI/PHDI/PMDI zero), C43_outside_spell (the month is reported as 0), C43_during_spell(_error) (all later months missing, or IndexError); true part: C43_zindex_partial (Z missing) and C43_before (earlier Z values unaffected when the gap is after the calibration)."
  },
  {
   "property": "C44",
   "status": "proved",
   "theorems": [
    "CI.Props.C44_reuse",
    "CI.Props.C44_incomplete",
    "CI.Props.C44_used"
   ],
   "note": "C44_reuse for every first call; C44_incomplete, C44_used."
  },
  {
   "property": "C45",
   "status": "partial",
   "theorems": [
    "CI.Props.C45_fails_float64",
    "CI.Props.C45_case",
    "CI.Props.C45_partial",
    "CI.Props.C45_fails"
   ],
   "note": "C45_case: interval statement for the case analysis on all values with probability in 0..100; C45_partial: reported PMDI is that of the month when no month of the record was left undecided; C45_fails: months rewritten by the final clean-up. C45_fails_float64: the counterexample also occurs in binary64 arithmetic."
  },
  {
   "property": "C46",
   "status": "proved",
   "theorems": [
    "CI.Props.C46_main",
    "CI.Props.C46_spi"
   ],
   "note": "both tools; at least one row for the main tool (zero rows: ZeroDivisionError)"
  },
  {
   "property": "C47",
   "status": "proved",
   "theorems": [
    "CI.Props.C47_single",
    "CI.Props.C47_double",
    "CI.Props.C47_spei",
    "CI.Props.C47_pet",
    "CI.Props.C47_fit",
    "CI.Props.C47_terminates"
   ],
   "note": "all interleavings of atomic reads and writes of single values, any function and in-place change; exceptions inside workers not modelled; divisions branch of the spi tool excluded (see C65); C47_spei, C47_pet, C47_fit say which second input each cell gets"
  },
  {
   "property": "C48",
   "status": "partial",
   "theorems": [
    "CI.Props.C48_partial",
    "CI.Props.C48_double_partial",
    "CI.Props.C48_fails",
    "CI.Props.C48_blocks_partial",
    "CI.Props.C48_pointwise_partial"
   ],
   "note": "proved for grids and divisions (C48_partial, C48_double_partial); false for single time series (C48_fails), which are cut into one block of time steps per worker (C48_blocks_partial: exact description); true there for functions that work value by value (C48_pointwise_partial)"
  },
  {
   "property": "C49",
   "status": "partial",
   "theorems": [
    "CI.Props.C49_fails",
    "CI.Props.C49_partial"
   ],
   "note": "false for all_but_one on one CPU (C49_fails); proved for all other cases"
  },
  {
   "property": "C50",
   "status": "partial",
   "theorems": [
    "CI.Props.C50_inputs_partial",
    "CI.Props.C50_fails",
    "CI.Props.C50_all_fails",
    "CI.Props.C50_timeseries_fails",
    "CI.Props.C50_zero_scale_fails"
   ],
   "note": "C50_inputs_partial: accepted arguments (every --index but all) have all needed, existing, well-dimensioned inputs and at most one of temperature and PET. The rest of the claim is false in the code: palmers/all are accepted but never complete (C50_fails), all is not checked (C50_all_fails), PET of a single time series is accepted and never completes (C50_timeseries_fails), a scale of zero is accepted and the run never completes (C50_zero_scale_fails)."
  },
  {
   "property": "C51",
   "status": "proved",
   "theorems": [
    "CI.Props.C51_outputs",
    "CI.Props.C51_distinct",
    "CI.Props.C51_kept"
   ],
   "note": "Exactly the documented outputs for every run that completes, distinct file names for distinct scales, results kept in the files."
  },
  {
   "property": "C52",
   "status": "proved",
   "theorems": [
    "CI.Props.C52_precip",
    "CI.Props.C52_pet",
    "CI.Props.C52_temp"
   ],
   "note": "Exact arithmetic over any ordered field; scipy.constants.convert_temperature is external and modelled by its documented formula; str.lower is a parameter."
  },
  {
   "property": "C53",
   "status": "partial",
   "theorems": [
    "CI.Props.C53_partial",
    "CI.Props.C53_fails"
   ],
   "note": "C53_partial: all accepted orders but (time, lat, lon) pass the later checks. False in the code for (time, lat, lon): C53_fails."
  },
  {
   "property": "C54",
   "status": "partial",
   "theorems": [
    "CI.Props.C54_partial",
    "CI.Props.C54_independent_partial",
    "CI.Props.C54_fails"
   ],
   "note": "False as stated (C54_fails: zeros are overwritten by the fitting at scale 1). Proved: the exact series that each output is the SPI of, and the property for runs without scale 1, without zeros, with incomplete years or with clipped data."
  },
  {
   "property": "C55",
   "status": "partial",
   "theorems": [
    "CI.Props.C55_partial",
    "CI.Props.C55_fails",
    "CI.Props.C55_daily_partial"
   ],
   "note": "Proved: any sequence of calls for monthly data (C55_partial) or of calls for daily data (C55_daily_partial, result array in years of 366 days) in one process has the same results, files and outputs as with each call in a new process, when all named input variables have one shape and common coordinates are the same. False for data sets of different shapes (C55_fails: concrete and general: every later computation of SPI or PNP with another shape raises), since the shared result array is kept."
  },
  {
   "property": "C56",
   "status": "proved",
   "theorems": [
    "CI.Props.C56"
   ],
   "note": "All argument combinations and file states with given scales and monthly or daily periodicity (the only values of the command line)."
  },
  {
   "property": "C57",
   "status": "partial",
   "theorems": [
    "CI.Props.C57_partial",
    "CI.Props.C57_fails"
   ],
   "note": "Proved for axes of at least two points; false for one-point axes (C57_fails)."
  },
  {
   "property": "C58",
   "status": "proved",
   "theorems": [
    "CI.Props.C58_marks",
    "CI.Props.C58_symm",
    "CI.Props.C58_rejects"
   ],
   "note": "Signs as in np.sign; sizes differ -> ValueError."
  },
  {
   "property": "C59",
   "status": "proved",
   "theorems": [
    "CI.Props.C59_symmetric64",
    "CI.Props.C59_accurate64",
    "CI.Props.C59_small_fails",
    "CI.Props.C59_value",
    "CI.Props.C59_distance",
    "CI.Props.C59_size"
   ],
   "note": "C59_value: the root of the mean of the squared differences, C59_distance: the laws of a distance, both in exact arithmetic; C59_size for arrays of different sizes. Binary64, any order of additions: C59_symmetric64 (all values, missing and infinite too), C59_accurate64 (differences 0 or between 2^-400 and 2^400), C59_small_fails (differences up to 2^-538: the distance is 0 for different arrays)."
  },
  {
   "property": "C60",
   "status": "partial",
   "theorems": [
    "CI.Props.C60_fails",
    "CI.Props.C60_one_year_partial",
    "CI.Props.C60_three_d"
   ],
   "note": "False in the code for more than one year (ValueError): C60_fails; proved for 12-column input and for 3-D input."
  },
  {
   "property": "C61",
   "status": "partial",
   "theorems": [
    "CI.Props.C61_fails"
   ],
   "note": "False for every such record: C61_fails (general theorem, no true part beyond records ending in December, which C43/C44 cover)."
  },
  {
   "property": "C62",
   "status": "partial",
   "theorems": [
    "CI.Props.C62_fails"
   ],
   "note": "False for every history: C62_fails (the balance continues from an empty soil). Exact arithmetic."
  },
  {
   "property": "C63",
   "status": "partial",
   "theorems": [
    "CI.Props.C63_partial",
    "CI.Props.C63_after_record",
    "CI.Props.C63_fails"
   ],
   "note": "C63_partial for periods inside the record; C63_fails: a period starting before the record wraps around to the last years; C63_after_record: a period ending after the record raises IndexError."
  },
  {
   "property": "C64",
   "status": "proved",
   "theorems": [
    "CI.Props.C64_monotone",
    "CI.Props.C64_float64"
   ],
   "note": "C64_monotone in exact real arithmetic. C64_float64: in binary64, under the data and library conditions of C134 and a monotone power function (satisfied by the library monoPow of the example), exactly, without error margin."
  },
  {
   "property": "C65",
   "status": "partial",
   "theorems": [
    "CI.Props.C65_fails",
    "CI.Props.C65_partial"
   ],
   "note": "false for every chunk of two or more divisions (C65_fails, all data); proved for chunks of one division"
  },
  {
   "property": "C66",
   "status": "proved",
   "theorems": [
    "CI.Props.C66_spi",
    "CI.Props.C66_pnp",
    "CI.Props.C66_pet",
    "CI.Props.C66_spei_given",
    "CI.Props.C66_spei_computed"
   ],
   "note": "For grids stored (lat, lon, time) and divisions stored (division, time), which are the orders for which the tool computes along time (see C53, C67); monthly and daily data; the years are those of the time coordinate. Input files must not be output files of the same run and their variable names must not be 'lat' or 'result_array'; for SPEI the common coordinates of the two files are the same, the two variables have different names, and a variable of the PET variable's name in the precipitation file is the same variable. C66_spi, C66_pnp, C66_pet, C66_spei_given, C66_spei_computed."
  },
  {
   "property": "C67",
   "status": "partial",
   "theorems": [
    "CI.Props.C67_fails"
   ],
   "note": "Violated: (time, division) passes all checks, but the tool computes along the last axis; proved for every finished run that the row of all divisions at one time is taken as a time series (C67_fails), with a run in which the result differs."
  },
  {
   "property": "C68",
   "status": "partial",
   "theorems": [
    "CI.Props.C68_monthly_partial",
    "CI.Props.C68_plain_partial",
    "CI.Props.C68_daily_partial",
    "CI.Props.C68_fails",
    "CI.Props.C68_scales_fails"
   ],
   "note": "Proved for all finished runs, with the exact series: C68_monthly_partial, C68_daily_partial; equal to the SPI of the precipitation unless scale 1 was processed and the series has zeros (C68_plain_partial). The full property is false (C68_fails; scale 3 depends on whether scale 1 is requested: C68_scales_fails)."
  },
  {
   "property": "C69",
   "status": "partial",
   "theorems": [
    "CI.Props.C69_loading",
    "CI.Props.C69_partial",
    "CI.Props.C69_fails"
   ],
   "note": "Proved for Pearson, for scales other than 1, and for gamma and scale 1 for series without zeros (C69_partial); what the loading run computes in general: C69_loading. False for gamma and scale 1 with zeros (C69_fails)."
  },
  {
   "property": "C70",
   "status": "partial",
   "theorems": [
    "CI.Props.C70_fails",
    "CI.Props.C70_output_fails"
   ],
   "note": "False: no run in a new process with at least one scale finishes (C70_fails; for such input the model raises at once where the code raises in the workers or when building the output). Independently of what the workers do, the monthly output cannot be built (C70_output_fails). There is no part of the property that holds."
  },
  {
   "property": "C71",
   "status": "partial",
   "theorems": [
    "CI.Props.C71_fails",
    "CI.Props.C71_loading_fails"
   ],
   "note": "False for all such records, without loaded parameters (C71_fails) and with (C71_loading_fails). There is no part of the property that holds."
  },
  {
   "property": "C72",
   "status": "partial",
   "theorems": [
    "CI.Props.C72_position",
    "CI.Props.C72_fails"
   ],
   "note": "What happens is proved for all files: parameters are taken by position, whatever the coordinates; the file must not be smaller (C72_position). The property is false (C72_fails: the same parameters with the longitudes in another order give other results)."
  },
  {
   "property": "C73",
   "status": "partial",
   "theorems": [
    "CI.Props.C73_partial",
    "CI.Props.C73_fails"
   ],
   "note": "Proved with the exact series for all finished runs (C73_partial). False for series with zeros once scale 1 has been processed (C73_fails: probability of zero saved as 0 instead of 1/6)."
  },
  {
   "property": "C74",
   "status": "partial",
   "theorems": [
    "CI.Props.C74_fails",
    "CI.Props.C74_spei_fails",
    "CI.Props.C74_partial"
   ],
   "note": "False in the code: daily values of divisions are not put into 366-day years although the results are taken from such years, so no run for SPI, PNP, all scaled indices or SPEI (with PET file) finishes (C74_fails, C74_spei_fails, for all records), except records of a single leap year, for which the written values are the SPI of the division (C74_partial)."
  },
  {
   "property": "C75",
   "status": "partial",
   "theorems": [
    "CI.Props.C75_fails",
    "CI.Props.C75_spei_fails",
    "CI.Props.C75_partial"
   ],
   "note": "False in the code for records that do not consist of whole years: no run finishes (C75_fails, C75_spei_fails, for all records). Proved for whole years: the value written for a day is the SPI at the slot of that calendar day (C75_partial)."
  },
  {
   "property": "C76",
   "status": "partial",
   "theorems": [
    "CI.Props.C76_partial",
    "CI.Props.C76_fails"
   ],
   "note": "False in the code: for SPEI and all scaled indices daily temperatures are accepted and enter the monthly equation as if every day were a month (C76_fails, for all records). Proved for --index pet: refused, nothing written (C76_partial)."
  },
  {
   "property": "C77",
   "status": "partial",
   "theorems": [
    "CI.Props.C77_union",
    "CI.Props.C77_disjoint_fails",
    "CI.Props.C77_partial",
    "CI.Props.C77_fails"
   ],
   "note": "False in the code: coordinates within the tolerance but not equal are accepted and then joined to the union of both grids (C77_fails, a complete run: twice the rows and only missing values). In general, for all files, data and scales: the SPEI is written on the union of the two grids; at places that are in both files it is the SPEI of that place, everywhere else all values are missing (C77_union); with no common latitude the output has the latitudes of both files and no value at all (C77_disjoint_fails). Proved for equal coordinates: dimensions, shape and number of values of the precipitation (C77_partial)."
  },
  {
   "property": "C78",
   "status": "partial",
   "theorems": [
    "CI.Props.C78_partial",
    "CI.Props.C78_fails"
   ],
   "note": "False in the code: for SPEI, scaled and Palmer indices the tolerance of a one-point axis raises ValueError, so such grids are never accepted (C78_fails, for all files). SPI, PNP and PET requests do not depend on the coordinates (C78_partial)."
  },
  {
   "property": "C79",
   "status": "partial",
   "theorems": [
    "CI.Props.C79_partial",
    "CI.Props.C79_fails"
   ],
   "note": "False in the code: numpy's relative tolerance of 1e-5 of the coordinate is added, so axes moved by a whole cell are accepted if the spacing is at most 1e-5 of the coordinates (C79_fails, for all such axes). Proved with that term and the resolution of the numbers added (C79_partial)."
  },
  {
   "property": "C80",
   "status": "proved",
   "theorems": [
    "CI.Props.C80_bounded",
    "CI.Props.C80_pdsi"
   ],
   "note": "C80_bounded for the spell machine (all records of numbers); C80_pdsi for pdsi with whole years and a Z-index of numbers. Exact arithmetic."
  },
  {
   "property": "C81",
   "status": "partial",
   "theorems": [
    "CI.Props.C81_fails_float64",
    "CI.Props.C81_first",
    "CI.Props.C81_follows",
    "CI.Props.C81_begins",
    "CI.Props.C81_partial",
    "CI.Props.C81_fails"
   ],
   "note": "C81_first and C81_follows: the recursion, for all records of numbers (independent relation Rules.Follows). C81_begins, C81_partial: a spell begins with an index of at least 1 in absolute value if the established index never is in the band 0.5 < |x3| <= 1.5/2.691 of C39. C81_fails: without that hypothesis it is false (an established index of -0.1 after one of 0). C81_fails_float64: the counterexample also occurs in binary64 arithmetic."
  },
  {
   "property": "C82",
   "status": "proved",
   "theorems": [
    "CI.Props.C82_resolved",
    "CI.Props.C82_zero"
   ],
   "note": "About the month loop, for any arithmetic satisfying FloatLaws. _finish_up runs after the loop and may overwrite months that were already resolved, see C42_fails."
  },
  {
   "property": "C83",
   "status": "proved",
   "theorems": [
    "CI.Props.C83_match",
    "CI.Props.C83_mirror"
   ],
   "note": "Exact arithmetic with the real exp, log, sqrt and log-Gamma (Spec/RealExt). The third L-moment is matched only approximately (Hosking's rational functions) and nothing is claimed about it."
  },
  {
   "property": "C84",
   "status": "partial",
   "theorems": [
    "CI.Props.C84_value",
    "CI.Props.C84_partial",
    "CI.Props.C84_fails"
   ],
   "note": "False as published in two ways. C84_value gives the exact value for positive accumulations: the code takes the zeros of the whole record and divides by the number of years (missing ones included) instead of the share in the calibration sample; C84_partial is the published index when both agree (for example no zeros). C84_fails: a zero accumulation always gets NaN."
  },
  {
   "property": "C85",
   "status": "partial",
   "theorems": [
    "CI.Props.C85_cases",
    "CI.Props.C85_value",
    "CI.Props.C85_partial",
    "CI.Props.C85_fails"
   ],
   "note": "False with zeros: C85_fails shows that zeros enter the probability of zero and the fitted distribution, whose mean is then less than that of the positive values. C85_cases gives the exact value of the index at every step, also for traces below 0.0005 and values outside the support of the fit; C85_partial is the published index for samples without zeros, traces and values outside the support excepted."
  },
  {
   "property": "C86",
   "status": "partial",
   "theorems": [
    "CI.Props.C86_partial",
    "CI.Props.C86_given_partial",
    "CI.Props.C86_normalised_partial",
    "CI.Props.C86_fails",
    "CI.Props.C86_desert_fails",
    "CI.Props.C86_one_year_fails"
   ],
   "note": "Proved when every calendar month has some moisture supply and some departure in the calibration years (C86_partial, C86_given_partial, C86_normalised_partial). Otherwise false: one calendar month without departures makes all Z values NaN and all PDSI, PHDI, PMDI zero (C86_fails); this happens for a month without rain on an empty soil (C86_desert_fails) and for every calibration period of a single year (C86_one_year_fails)."
  },
  {
   "property": "C87",
   "status": "partial",
   "theorems": [
    "CI.Props.C87_fails_float64",
    "CI.Props.C87_partial",
    "CI.Props.C87_fails",
    "CI.Props.C87_tie_fails"
   ],
   "note": "False: a drought that begins keeps the incipient wet index of that month, a wet spell drops the dry one (C87_fails, PDSI 0.871 against -0.863); incipient indices of equal size always give the dry one as PMDI (C87_tie_fails). C87_partial proves the symmetry of all output for histories without these two situations and outside the band of C39. C87_fails_float64: the counterexample also occurs in binary64 arithmetic."
  },
  {
   "property": "C88",
   "status": "partial",
   "theorems": [
    "CI.Props.C88_pnp",
    "CI.Props.C88_pearson",
    "CI.Props.C88_gamma_partial",
    "CI.Props.C88_gamma_fails",
    "CI.Props.C88_gamma_given_fails",
    "CI.Props.C88_missing_fails",
    "CI.Props.C88_pet_partial",
    "CI.Props.C88_pet_fails",
    "CI.Props.C88_palmer_z",
    "CI.Props.C88_palmer_numbers",
    "CI.Props.C88_palmer_fails",
    "CI.Props.C88_every_fails"
   ],
   "note": "True for the percentage of normal (C88_pnp), for the Pearson SPI without negative values (C88_pearson, including the cases that raise) and for the Palmer coefficients, Z values and candidate indices (C88_palmer_z, C88_palmer_numbers). For the gamma SPI and Thornthwaite it holds only under a further hypothesis (same share of zeros / same heat index) and the full statement is proved false: C88_every_fails (the gamma index of a wet step is unchanged exactly when the share of dry accumulations is, or at the limits), C88_gamma_fails, C88_gamma_given_fails (probability of zero is taken over the whole record, even with given parameters), C88_missing_fails (one appended missing value switches off the clipping of negative values), C88_pet_fails (heat index over the whole record), C88_palmer_fails (a decided month changes PDSI, PHDI and PMDI when a month is appended)."
  },
  {
   "property": "C89",
   "status": "partial",
   "theorems": [
    "CI.Props.C89_partial",
    "CI.Props.C89_gamma_mono",
    "CI.Props.C89_negative_fails"
   ],
   "note": "C89_partial: equality with spi, including errors, for series without negative precipitation and with precips - pet + 1000 nowhere negative and not entirely missing; C89_gamma_mono transfers the order property. C89_negative_fails: a balance below -1000 is kept by spei and clipped to zero by spi."
  },
  {
   "property": "C90",
   "status": "partial",
   "theorems": [
    "CI.Props.C90_transform",
    "CI.Props.C90_series_partial",
    "CI.Props.C90_spi_partial",
    "CI.Props.C90_spei_unit_partial",
    "CI.Props.C90_spei_shift_partial",
    "CI.Props.C90_trace_fails",
    "CI.Props.C90_gamma_spei_fails"
   ],
   "note": "C90_series_partial / C90_spi_partial / C90_spei_unit_partial / C90_spei_shift_partial in exact arithmetic for an arbitrary location-scale Pearson distribution function, for data that are missing, zero, or at least 0.0005 in both units. C90_trace_fails: the threshold 0.0005 has a hidden unit. C90_gamma_spei_fails: the offset 1000 makes the gamma SPEI depend on the unit. (The gamma SPI is C22.)"
  },
  {
   "property": "C91",
   "status": "partial",
   "theorems": [
    "CI.Props.C91_spi",
    "CI.Props.C91_spei",
    "CI.Props.C91_pnp",
    "CI.Props.C91_palmer",
    "CI.Props.C91_pet_partial",
    "CI.Props.C91_pet_400",
    "CI.Props.C91_pet_fails"
   ],
   "note": "C91_spi, C91_spei, C91_pnp, C91_palmer without further conditions and for every float arithmetic. PET: C91_pet_partial (same leap years), C91_pet_400 (multiples of 400 years); C91_pet_fails: the length of February makes the statement false otherwise."
  },
  {
   "property": "C92",
   "status": "proved",
   "theorems": [
    "CI.Props.C92_spi",
    "CI.Props.C92_pnp"
   ],
   "note": "C92_spi: sums not entirely missing (for entirely missing sums spi returns the sums' missing series, C16). C92_pnp: every series."
  },
  {
   "property": "C93",
   "status": "partial",
   "theorems": [
    "CI.Props.C93_monthly_partial",
    "CI.Props.C93_daily_partial",
    "CI.Props.C93_fails"
   ],
   "note": "C93_monthly_partial, C93_daily_partial: equal values unless the SPI tool has processed scale 1 for a place with zeros before (or at) this scale. C93_fails: in that case the SPI tool has overwritten the zeros of its input with missing values and its values differ."
  },
  {
   "property": "C94",
   "status": "partial",
   "theorems": [
    "CI.Props.C94_fails_float64",
    "CI.Props.C94_partial",
    "CI.Props.C94_fails",
    "CI.Props.C94_pmdi_fails",
    "CI.Props.C94_earlier_fails",
    "CI.Props.C94_record_partial"
   ],
   "note": "True for PDSI and PHDI when the established index of the past was never in the band of C39 (0.5 < |x| <= 0.557), for Z values and for precipitation; false in the band (C94_fails), false for PMDI (C94_pmdi_fails) and false for a wetter earlier month (C94_earlier_fails) C94_fails_float64: the counterexample also occurs in binary64 arithmetic."
  },
  {
   "property": "C95",
   "status": "partial",
   "theorems": [
    "CI.Props.C95_partial",
    "CI.Props.C95_fails"
   ],
   "note": "False as stated: C95_fails (AWC 6.0, p = PET = 3.4 leaves 1 + 2^-51 in the upper layer; a 10-month record exceeds the lower capacity by 2^-50). Proved for every record, in binary64 arithmetic with rounding to nearest even: both layers are never negative and exceed their capacity by rounding errors at most (explicit bounds)."
  },
  {
   "property": "C96",
   "status": "partial",
   "theorems": [
    "CI.Props.C96_partial",
    "CI.Props.C96_beta_fails",
    "CI.Props.C96_gamma_fails"
   ],
   "note": "False as stated: C96_beta_fails (30 years of calibration, exact coefficient 1, float64 0) and C96_gamma_fails (exact 0, float64 above 10^16). Proved (C96_partial): for a record of T months, the coefficient of a calendar month is accurate, with an explicit error bound, whenever the exact sum of the potential values of that month is at least 8 T^2 B / 2^46. Missing: sums closer to zero, where the claim is false."
  },
  {
   "property": "C97",
   "status": "proved",
   "theorems": [
    "CI.Props.C97_sums"
   ],
   "note": "For binary64 with rounding to nearest even and any order of additions (SumOrder); nonzero values between 10^-100 and 10^100 (Rain), scale up to 2^40."
  },
  {
   "property": "C98",
   "status": "proved",
   "theorems": [
    "CI.Props.C98_pnp"
   ],
   "note": "Same arithmetic as C97; the exact value is that of the same model function on exact numbers, characterised by C28."
  },
  {
   "property": "C99",
   "status": "proved",
   "theorems": [
    "CI.Props.C99_pci"
   ],
   "note": "Same arithmetic as C97."
  },
  {
   "property": "C100",
   "status": "proved",
   "theorems": [
    "CI.Props.C100_drift"
   ],
   "note": "Binary64 with rounding to nearest even and any finite or rounded input; error in month t at most 80 (t+1) B / 2^53 for every quantity of the balance."
  },
  {
   "property": "C101",
   "status": "proved",
   "theorems": [
    "CI.Props.C101_coordinates"
   ],
   "note": "The joining of files is done by xarray (open_mfdataset, outer join); its effect is modelled by alignVar and joinCoord and is part of the trusted model."
  },
  {
   "property": "C102",
   "status": "proved",
   "theorems": [
    "CI.Props.C102_spi",
    "CI.Props.C102_spei",
    "CI.Props.C102_pnp",
    "CI.Props.C102_scale_fails",
    "CI.Props.C102_calibration_fails",
    "CI.Props.C102_fails_float64",
    "CI.Props.C102_pet",
    "CI.Props.C102_pet_fails"
   ],
   "note": "C102_spi, C102_spei, C102_pnp for all permutations, in exact real arithmetic with arbitrary special functions that map NaN to NaN. C102_pet: Thornthwaite PET, years of the same leap type. The limits named in the statement are proved too: C102_scale_fails (scale 2), C102_calibration_fails (shorter calibration), C102_fails_float64 (rounding), C102_pet_fails (a leap year exchanged with an ordinary year)."
  },
  {
   "property": "C103",
   "status": "proved",
   "theorems": [
    "CI.Props.C103_bounded",
    "CI.Props.C103_pdsi",
    "CI.Props.C103_exact_fails",
    "CI.Props.C103_overflow_fails"
   ],
   "note": "C103_bounded (spell machine) and C103_pdsi in IEEE binary64 for every summation order. The exact bound M / 0.309 of C80 is exceeded by rounding (C103_exact_fails: 330 months of z = 1), and Z values near the top of the float64 range overflow (C103_overflow_fails), so the tolerance and the bound on M are needed."
  },
  {
   "property": "C104",
   "status": "partial",
   "theorems": [
    "CI.Props.C104_scale",
    "CI.Props.C104_fit_partial",
    "CI.Props.C104_constant_fails",
    "CI.Props.C104_distinct_fails"
   ],
   "note": "C104_scale: the error of the L-scale, every sample. C104_fit_partial: away from degeneracy (lambda2 > |lambda3| + 3 times the error limit) mean, L-scale and L-skewness are accurate and the fit is not refused. The exact condition of refusal is false in float64: a constant sample of twenty 0.7 is fitted (C104_constant_fails), a sample that is not degenerate is refused (C104_distinct_fails)."
  },
  {
   "property": "C105",
   "status": "proved",
   "theorems": [
    "CI.Props.C105_read",
    "CI.Props.C105_order",
    "CI.Props.C105_main",
    "CI.Props.C105_spi",
    "CI.Props.C105_unknown",
    "CI.Props.C105_ambiguous",
    "CI.Props.C105_abbrev",
    "CI.Props.C105_dash_fails",
    "CI.Props.C105_only"
   ],
   "note": "For both tools: reading in any order (C105_read, C105_order), round trip of all arguments with separate or joined values (C105_main, C105_spi), abbreviations, unknown and ambiguous options, and the converse: an accepted line consists of settings (C105_only). C105_dash_fails: separate values that begin with a dash are refused."
  },
  {
   "property": "C106",
   "status": "partial",
   "theorems": [
    "CI.Props.C106_given",
    "CI.Props.C106_early",
    "CI.Props.C106_pet",
    "CI.Props.C106_pnp_fails",
    "CI.Props.C106_spi_fails",
    "CI.Props.C106_spei_fails",
    "CI.Props.C106_spei_temp_fails"
   ],
   "note": "Given years, PET, and a start year before the record are proved; the wish that the run gives a result or refuses before computing is false: C106_pnp_fails, C106_spi_fails, C106_spei_fails (with a PET file), C106_spei_temp_fails (PET from temperature; SPI and SPEI where the Pearson index would have a number)."
  },
  {
   "property": "C107",
   "status": "proved",
   "theorems": [
    "CI.Props.C107_loaded"
   ],
   "note": "Equality of complete runs, in any arithmetic."
  },
  {
   "property": "C108",
   "status": "partial",
   "theorems": [
    "CI.Props.C108_spi",
    "CI.Props.C108_spei_given",
    "CI.Props.C108_spei_computed",
    "CI.Props.C108_tool_monthly",
    "CI.Props.C108_tool_daily",
    "CI.Props.C108_tool_loaded",
    "CI.Props.C108_pnp_partial",
    "CI.Props.C108_pnp_fails",
    "CI.Props.C108_pet_fails"
   ],
   "note": "True for SPI and SPEI in both tools (C108_spi, C108_spei_given, C108_spei_computed, C108_tool_monthly, C108_tool_daily, C108_tool_loaded; all finished runs, all special functions, all loaded parameters). False for PNP: C108_pnp_fails is a finished run with the value 2000; C108_pnp_partial bounds the values of the calibration years by the number of those years. False for PET: C108_pet_fails shows that Thornthwaite's equation as coded has no upper bound at all, a year with one month barely above freezing makes it arbitrarily large."
  },
  {
   "property": "C109",
   "status": "partial",
   "theorems": [
    "CI.Props.C109_partial",
    "CI.Props.C109_negative_fails",
    "CI.Props.C109_positive_fails"
   ],
   "note": "C109_partial: equal, exceptions included, for arrays without values below 0.0005 (missing values allowed). False for dry values: with negative skew the old branch gives every dry value the probability 1 (C109_negative_fails), with positive skew p0 instead of p0 + 0.0005 (1 - p0) (C109_positive_fails). Exact arithmetic."
  },
  {
   "property": "C110",
   "status": "partial",
   "theorems": [
    "CI.Props.C110_spi_fails",
    "CI.Props.C110_spi_partial",
    "CI.Props.C110_fails",
    "CI.Props.C110_pnp_fails"
   ],
   "note": "Scales of at least 2 (np.convolve drops the mask); scale 1 is not modelled. False: the mask is ignored and the values under it are taken as precipitation (C110_spi_fails for every array with a visible number and no negative values, C110_pnp_fails for every array, C110_fails a case). True if the data under the mask are NaN, and for entirely masked arrays (C110_spi_partial)."
  },
  {
   "property": "C111",
   "status": "partial",
   "theorems": [
    "CI.Props.C111_plain",
    "CI.Props.C111_masked_partial",
    "CI.Props.C111_masked_fails"
   ],
   "note": "Proved for plain arrays (C111_plain). For masked arrays only the two implications of C111_masked_partial; false if all visible elements are NaN (C111_masked_fails, for all such arrays)."
  },
  {
   "property": "C112",
   "status": "proved",
   "theorems": [
    "CI.Props.C112_pet",
    "CI.Props.C112_daylight"
   ],
   "note": "Exact real arithmetic. March and September are not part of the statement: their days lie on both sides of the equinox."
  },
  {
   "property": "C113",
   "status": "proved",
   "theorems": [
    "CI.Props.C113_run",
    "CI.Props.C113_spi_exact",
    "CI.Props.C113_one_place_fails",
    "CI.Props.C113_pnp_exact"
   ],
   "note": "C113_run: exact condition for finishing and the state afterwards in both cases, for SPI and PNP of monthly grids and divisions, any arithmetic. C113_spi_exact: the condition on the precipitation in exact arithmetic. C113_pnp_exact: the condition for the percentage of normal, any arithmetic. C113_one_place_fails: one place without a Pearson fit leaves the whole grid without any output. Daily data are not part of the statement; SPEI and several indices in one run: C116, PET: C117."
  },
  {
   "property": "C114",
   "status": "proved",
   "theorems": [
    "CI.Props.C114_spi",
    "CI.Props.C114_pnp",
    "CI.Props.C114_pet",
    "CI.Props.C114_spei_temp",
    "CI.Props.C114_scaled",
    "CI.Props.C114_scaled_temp",
    "CI.Props.C114_spei"
   ],
   "note": "C114_spi, C114_spei, C114_pnp, C114_pet, C114_spei_temp, C114_scaled (all scaled indices with a PET file) and C114_scaled_temp (from temperature), from the argument list to the values in the files, in exact arithmetic. GammaIndex and PearsonIndex (SPI) and SpeiGamma and SpeiPearson (SPEI) say what the values are, including what deviates from the publication (C84_fails: dry accumulations have no gamma index; share of zeros of the whole record). Samples without two different (positive) values (gamma) or with fewer than four (Pearson) are not described. petRecord says what the PET is, including the two deviations of C30 (no value at all without a temperature above freezing or for a calendar month that never has one)."
  },
  {
   "property": "C115",
   "status": "proved",
   "theorems": [
    "CI.Props.C115_pearson",
    "CI.Props.C115_gamma",
    "CI.Props.C115_refused",
    "CI.Props.C115_defined"
   ],
   "note": "C115_pearson, C115_defined, C115_refused, C115_gamma, exact arithmetic; the distribution functions are parameters. Balances of -1000 and less: C89_negative_fails. That the gamma SPEI depends on the 1000: C90_gamma_spei_fails."
  },
  {
   "property": "C116",
   "status": "proved",
   "theorems": [
    "CI.Props.C116_run",
    "CI.Props.C116_spei_exact",
    "CI.Props.C116_scaled_exact"
   ],
   "note": "C116_run: exact condition for finishing and the state afterwards in both cases, for SPEI and all scaled indices with a PET file, monthly grids and divisions, any arithmetic. C116_spei_exact, C116_scaled_exact: the condition on the values in exact arithmetic. Runs that compute the PET from temperature: C117."
  },
  {
   "property": "C117",
   "status": "proved",
   "theorems": [
    "CI.Props.C117_pet",
    "CI.Props.C117_run",
    "CI.Props.C117_pet_exact",
    "CI.Props.C117_spei_exact",
    "CI.Props.C117_scaled_exact"
   ],
   "note": "C117_pet and C117_run: exact condition for finishing and the state afterwards in both cases, for PET, SPEI and all scaled indices from temperature, monthly grids and divisions, any arithmetic. C117_pet_exact, C117_spei_exact, C117_scaled_exact: the condition on latitudes and values in exact arithmetic; the poles themselves are refused (C31_fails). Assumed: str.lower leaves 'millimeters' as it is, and neither input file has a variable named pet_thornthwaite."
  },
  {
   "property": "C118",
   "status": "proved",
   "theorems": [
    "CI.Props.C118_run",
    "CI.Props.C118_finish",
    "CI.Props.C118_exact",
    "CI.Props.C118_order_fails"
   ],
   "note": "Complete runs of the SPI tool on monthly grids: exact condition under which they finish, and every file and log entry they leave (C118_run, C118_finish), in every arithmetic that satisfies the laws; the condition on the precipitation in exact arithmetic (C118_exact); a record for which scales 2, 1 finish and scales 1, 2 do not (C118_order_fails). Daily data and loaded parameters are not covered by this property."
  },
  {
   "property": "C119",
   "status": "proved",
   "theorems": [
    "CI.Props.C119_spi"
   ],
   "note": "C119_spi: exact arithmetic; the special functions are parameters with the stated properties; a record that cannot be fitted is excluded because no run finishes for it (C118)."
  },
  {
   "property": "C120",
   "status": "partial",
   "theorems": [
    "CI.Props.C120_agree",
    "CI.Props.C120_fails",
    "CI.Props.C120_agree_daily",
    "CI.Props.C120_daily_fails"
   ],
   "note": "The statement is false in general (C120_fails: five years, one dry; the SPI tool has overwritten the zero by a missing value before it counts zeros; C120_daily_fails: on daily values the main tool finishes and the SPI tool does not). C120_agree and C120_agree_daily: bitwise agreement in every arithmetic at every place whose record has no zero, and at all places if scale 1 was not processed before or at the scale."
  },
  {
   "property": "C121",
   "status": "partial",
   "theorems": [
    "CI.Props.C121_any",
    "CI.Props.C121_before",
    "CI.Props.C121_loaded",
    "CI.Props.C121_exact",
    "CI.Props.C121_daily"
   ],
   "note": "The statement is false: C121_any (monthly: every such run ends with TypeError and writes at most the gamma file of the first scale, any arithmetic), C121_daily (the same for the days of whole years, with the exact condition and content of that file), C121_exact (monthly, exact arithmetic: exactly when that file is written, and what it holds). What remains true: C121_loaded (with loaded parameters the years do not matter), C121_before (first year before the record: the run of any last year)."
  },
  {
   "property": "C122",
   "status": "proved",
   "theorems": [
    "CI.Props.C122_run",
    "CI.Props.C122_spi_exact",
    "CI.Props.C122_pnp_exact"
   ],
   "note": "C122_run (any arithmetic, SPI and PNP), C122_spi_exact (exact arithmetic: no place, scale and calendar day with an unfit sample), C122_pnp_exact (any arithmetic). Grids whose record begins on 1 January and ends on 31 December; for other records see C75, for divisions C74."
  },
  {
   "property": "C123",
   "status": "proved",
   "theorems": [
    "CI.Props.C123_spi",
    "CI.Props.C123_pnp"
   ],
   "note": "C123_spi, C123_pnp: from the list of arguments to the values in the files. Exact arithmetic; published index in years of 366 days, as C114 for monthly values."
  },
  {
   "property": "C124",
   "status": "proved",
   "theorems": [
    "CI.Props.C124_run",
    "CI.Props.C124_spei_exact",
    "CI.Props.C124_scaled_exact"
   ],
   "note": "C124_run: any arithmetic; res = ok iff all outputs computable, and what a failed run leaves. C124_spei_exact, C124_scaled_exact: exact criterion in exact arithmetic. Whole calendar years on a grid."
  },
  {
   "property": "C125",
   "status": "proved",
   "theorems": [
    "CI.Props.C125_spei",
    "CI.Props.C125_scaled"
   ],
   "note": "C125_spei: from the list of arguments to the values in the files. Exact arithmetic; index of the water balance in years of 366 days, as C114_spei for monthly values. C125_scaled: the same for all scaled indices (five files per scale)."
  },
  {
   "property": "C126",
   "status": "proved",
   "theorems": [
    "CI.Props.C126_run",
    "CI.Props.C126_finish",
    "CI.Props.C126_exact"
   ],
   "note": "C126_run for every arithmetic, C126_finish as equivalence, C126_exact in exact arithmetic."
  },
  {
   "property": "C127",
   "status": "proved",
   "theorems": [
    "CI.Props.C127_spi"
   ],
   "note": "In exact arithmetic; the special functions are parameters with the properties named in the theorem."
  },
  {
   "property": "C128",
   "status": "proved",
   "theorems": [
    "CI.Props.C128_loads",
    "CI.Props.C128_zero_fails",
    "CI.Props.C128_command"
   ],
   "note": "SpiLoads (Spec/SpiLive) lists what is asked of the input and of the file of parameters; C128_command is the same from the command line, with years given or not; C128_zero_fails: with scale 0 among the scales and a value other than 0 the arguments are accepted and the run does not finish."
  },
  {
   "property": "C129",
   "status": "proved",
   "theorems": [
    "CI.Props.C129_again",
    "CI.Props.C129_commands"
   ],
   "note": "C129_again for the entry point, C129_commands from the command line. The exception for gamma and scale 1 with zeros is real (C69_fails). The file of parameters and the input must not have the name of an output file of the first run."
  },
  {
   "property": "C130",
   "status": "proved",
   "theorems": [
    "CI.Props.C130_mean",
    "CI.Props.C130_negative_fails",
    "CI.Props.C130_finite_fails"
   ],
   "note": "C130_mean in binary64 for every order of the additions; C130_negative_fails and C130_finite_fails: additions from the first row to the last (numpy's order over axis 0), equal amounts in one calendar step of any record."
  },
  {
   "property": "C131",
   "status": "partial",
   "theorems": [
    "CI.Props.C131_partial",
    "CI.Props.C131_fails",
    "CI.Props.C131_same",
    "CI.Props.C131_same_float64"
   ],
   "note": "C131_partial: AWC of at least one inch, exact arithmetic (float64: C95). C131_fails: every capacity between 0 and 1 inch, every month with one inch more precipitation than PET. C131_same, C131_same_float64: all results of pdsi are equal for any two capacities of at most one inch, in exact arithmetic and bit by bit in float64."
  },
  {
   "property": "C132",
   "status": "proved",
   "theorems": [
    "CI.Props.C132_parameters"
   ],
   "note": "C132_parameters: shape and scale of every calendar step in binary64 (any summation order) against the real-number estimates of Spec/McKee, relative errors explicit in the number of years, the size of the logarithms and the statistic. Hypotheses on the libraries only: relative error of log 2^-50, of sqrt 2^-52 (glibc and IEEE promise less). For almost equal amounts see C130_negative_fails and C130_finite_fails. Non-vacuity: nearExt (log and sqrt next to the exact values), five years with 1,2,4,8,16 in January."
  },
  {
   "property": "C133",
   "status": "proved",
   "theorems": [
    "CI.Props.C133_total",
    "CI.Props.C133_accurate",
    "CI.Props.C133_pet"
   ],
   "note": "C133_total (twelve day lengths between 0 and 24 h for every latitude up to 90 degrees), C133_accurate (2^-40 hours up to 60 degrees, against the real-number formula of Spec/TrigReal), C133_pet (no exception, length of the record). Hypotheses only on the library: math.pi is its float64 value, |sin| <= 1, tan finite, 0 <= arccos <= math.pi; for the accuracy absolute errors of 2^-50. Non-vacuity: nearTrig. Beyond 60 degrees the arc cosine is ill conditioned near polar day and night, no accuracy is claimed there."
  },
  {
   "property": "C134",
   "status": "proved",
   "theorems": [
    "CI.Props.C134_pet",
    "CI.Props.C134_uniform"
   ],
   "note": "C134_pet: alignment, exact zeros, NaN and the explicit relative error in binary64; C134_uniform: non-negative and one bound (N+20)/2^36 for all months. Hypotheses on the library (accuracy of sin, tan, arccos, pow) are explicit; nearTrig and nearPow satisfy them."
  },
  {
   "property": "C135",
   "status": "proved",
   "theorems": [
    "CI.Props.C135_accumulations",
    "CI.Props.C135_spi"
   ],
   "note": "C135_spi: mixed backward and forward error of the whole gamma SPI in binary64 (sums of C97, parameters of C132, mixed probability, quantile, clip). The accumulations are the float64 ones (C97 bounds their distance to the exact sums)."
  },
  {
   "property": "C136",
   "status": "proved",
   "theorems": [
    "CI.Props.C136_accumulations",
    "CI.Props.C136_spei"
   ],
   "note": "C136_spei: the balance is accurate and positive, spei is spi of it (C89_partial), then C135; all accumulations are positive, so the share of zeros is 0."
  },
  {
   "property": "C137",
   "status": "proved",
   "theorems": [
    "CI.Props.C137_temp",
    "CI.Props.C137_precip",
    "CI.Props.C137_pet"
   ],
   "note": "Rounding of every intermediate result bounded; conversion by scipy.constants is modelled from its documentation (external)."
  },
  {
   "property": "C138",
   "status": "proved",
   "theorems": [
    "CI.Props.C138_pet"
   ],
   "note": "Composition of C105, C106, C117 (generic in the number type) with C133 and C134; accuracy claims under the data conditions of C134 (latitude up to 60 degrees)."
  },
  {
   "property": "C139",
   "status": "proved",
   "theorems": [
    "CI.Props.C139_spi",
    "CI.Props.C139_pnp"
   ],
   "note": "Composition of C105, C106, C113 with C135 and C98; whether the Pearson index can be computed is characterised in exact arithmetic only (C113)."
  },
  {
   "property": "C140",
   "status": "proved",
   "theorems": [
    "CI.Props.C140_spei",
    "CI.Props.C140_temp"
   ],
   "note": "C140_spei: composition of C105, C106, C116, C136_spei and C136_accumulations; C140_temp: the same with the evapotranspiration from temperature (C117, C133/C134), the PET file included. The Pearson files are related to the model's own float64 value only (C116, C117), not to the exact Pearson index. In both examples the run provably ends (C142 for the second)."
  },
  {
   "property": "C141",
   "status": "partial",
   "theorems": [
    "CI.Props.C141_cases",
    "CI.Props.C141_partial",
    "CI.Props.C141_fails",
    "CI.Props.C141_float64",
    "CI.Props.C141_fails_float64"
   ],
   "note": "The claim as stated is false: accumulations below 0.0005 (zeros) get the clamped quantile of the probability 0.0005 (-3.09) although nothing was fitted (C141_fails: every month of a desert; C141_fails_float64: also in binary64). C141_cases and C141_float64 give every value exactly; C141_partial: the index is missing exactly at accumulations of at least 0.0005. Assumes that the library has no Pearson probability for scale 0."
  },
  {
   "property": "C142",
   "status": "proved",
   "theorems": [
    "CI.Props.C142_spi",
    "CI.Props.C142_spei",
    "CI.Props.C142_run_spi",
    "CI.Props.C142_run_spei",
    "CI.Props.C142_run_temp",
    "CI.Props.C142_run_daily",
    "CI.Props.C142_run_daily_spei",
    "CI.Props.C142_tool",
    "CI.Props.C142_tool_daily"
   ],
   "note": "Any arithmetic with FloatLaws, any library. C142_run_spi, C142_run_spei, C142_run_temp, C142_run_daily, C142_run_daily_spei: complete runs of the main tool from the command line end and write exactly the documented files (from temperature: exactly if evapotranspiration can be computed). C142_tool, C142_tool_daily: the same for the SPI tool, with the fitting parameters."
  },
  {
   "property": "C143",
   "status": "partial",
   "theorems": [
    "CI.Props.C143_order",
    "CI.Props.C143_more",
    "CI.Props.C143_scale_fails",
    "CI.Props.C143_fails64",
    "CI.Props.C143_other64",
    "CI.Props.C143_outside64"
   ],
   "note": "C143_order holds for rounded arithmetic. C143_more is the full claim on more rain in exact arithmetic for scales of at most a year. In float64, for every scale and order of additions: C143_other64 (a sum in which nothing changed never rises) and C143_outside64 (nothing falls if the additional rain is outside the calibration sums). The claim is false for scales of more than a year (C143_scale_fails) and, by one unit in the last place, in float64 for months of the calibration years (C143_fails64)."
  },
  {
   "property": "C144",
   "status": "partial",
   "theorems": [
    "CI.Props.C144_gamma_partial",
    "CI.Props.C144_pearson_partial",
    "CI.Props.C144_fails"
   ],
   "note": "C144_gamma_partial for equal numbers of dry years of the calendar step, C144_pearson_partial if the probability of zero is zero or both values are inside the bound of the fitted distribution, both for rounded arithmetic. False for gamma otherwise (C144_fails): the probability of a dry month is taken from the whole record, not from the calibration years."
  },
  {
   "property": "C145",
   "status": "proved",
   "theorems": [
    "CI.Props.C145_pnp",
    "CI.Props.C145_run"
   ],
   "note": "The converted data carry two rounding errors (the literal 25.4 and the product); compared with exact arithmetic on the unconverted data, where the unit drops out (C28_unit)."
  },
  {
   "property": "C146",
   "status": "proved",
   "theorems": [
    "CI.Props.C146_spi"
   ],
   "note": "Assumptions on the external functions as in C135 and C139 (logarithm and square root within a rounding error, gamma distribution and normal quantile within given errors). The Pearson files are those of C118."
  },
  {
   "property": "C147",
   "status": "proved",
   "theorems": [
    "CI.Props.C147_pnp",
    "CI.Props.C147_run"
   ],
   "note": "C147_pnp: conversion, 366-day years and percentage of normal in B64 against the exact percentage of normal of the unconverted data. C147_run: the same for complete daily runs of the main tool on a grid. Example: five years of daily rain in inches with a rounded 29 February."
  },
  {
   "property": "C148",
   "status": "proved",
   "theorems": [
    "CI.Props.C148_spi"
   ],
   "note": "C148_spi: complete daily runs in B64; DailyGamma64 says what the gamma files hold. It ends without exception exactly if the Pearson index exists at every place (the refusal is in the code, C122). Example: five years of daily rain."
  },
  {
   "property": "C149",
   "status": "proved",
   "theorems": [
    "CI.Props.C149_spi"
   ],
   "note": "C149_spi: complete daily runs of the SPI tool in B64; ToolGamma64 says what the gamma file of every scale that is reached holds, also if a later Pearson fit ends the run. Example: five years of daily rain, with every premise discharged."
  }
 ]
}