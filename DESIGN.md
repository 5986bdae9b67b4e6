# Formal model of climate_indices: design

Source: `/repo` (monocongo/climate_indices, pinned commit), read as text, never executed.
Model: Lean 4.33.0 + Mathlib, under `lean/Verif/`.

## 1. How the model is organised

| Directory | Content |
|---|---|
| `Verif/Base` | values: abstract floats, Python errors, Python slices, numpy arrays |
| `Verif/Model` | the code, function by function; every definition cites file and lines |
| `Verif/Spec` | small independent specifications (calendar, windows, ...) |
| `Verif/Lemmas` | helper lemmas about the model |
| `Verif/Props` | the property theorems, one file per property group, with a concrete example next to each |

### Values

* **Floats.** Model functions are polymorphic over `F` with `[FloatOps F]`
  (nan, arithmetic, boolean comparisons, literals). Structural theorems (layout, windows, missing
  values, range, independence, clipping, spell logic) use only the law class `[FloatLaws F]`:
  one NaN (payloads ignored), NaN absorbing in arithmetic, all comparisons with NaN false, `<=` a
  total preorder on the other values; `[FloatMono F]` adds monotonicity of the operations. IEEE binary64
  *with rounding and signed zeros* satisfies these laws: `Base/Binary64` defines binary64 (round to nearest, ties to even,
  gradual underflow, overflow, signed zeros, one NaN; `np.sum` adds in any order, one order per length, parameter `SumOrder`)
  and proves both classes, for every order. So those theorems hold for the arithmetic of the program and are not about exact arithmetic.
  `Fl K` (an ordered field plus nan, +inf, -inf) is an instance: it proves that the laws are consistent and
  is used for executable witnesses over `Fl ℚ`.
* **Exact arithmetic.** Theorems about sums and ratios (water balance, L-moments, gamma parameters,
  percentage of normal, daylight, rmse) are over an ordered field or ℝ: rounding error is *not*
  modelled there. Each such theorem says so in its file header. C95-C100 compare binary64 with exact arithmetic for
  k-step sums, percentage of normal, the concentration index and the soil water; the counterexamples to C39, C41, C42, C45, C81, C87 and
  C94 are also run in binary64.
* **Arrays.** `Arr α` = shape (`List Nat`) + data in C order. Slices follow Python: negative bounds count
  from the end, bounds are clamped, stop <= start gives an empty slice.
* **Errors.** `Except PyErr α` with the exception class as value (ValueError, IndexError, ...). Messages and
  logging are dropped.
* **Mutation / aliasing.** The value-level model is pure. Aliasing (numpy views, in-place writes to the
  caller's array) is the subject of a separate heap-level model (`Model/Alias`) used for C19, C54.
* **Concurrency.** Worker processes are sequences of atomic reads/writes on one shared memory; every
  interleaving is considered (`Model/Parallel`).
* **External numerics.** `scipy.stats.gamma.cdf`, `pearson3.cdf`, `norm.ppf`, `exp`, `log`, `lgamma` are
  *parameters*; what is assumed of them is an explicit structure of laws in the theorem statement, with
  an instance showing that the assumptions are satisfiable.

### What is modelled, file by file

| Source | Model | Left out |
|---|---|---|
| `utils.py` | `Model/Calendar` (datetime ordinals, leap years), `Model/Utils` (compute_days, counts, reshapes, 366-day calendars, tolerance, sign_change, rmse), `Model/Masked` (is_data_valid of masked arrays) | get_logger |
| `compute.py` | `Model/Compute` (validation, sum_to_scale, probability of zero, Pearson and gamma fits and transforms, scale_values), `Model/OldScipy` (the branch for scipy before 1.6.0) | logging, warnings |
| `lmoments.py` | `Model/Lmoments` | - |
| `indices.py` | `Model/Indices` (spi, spei, percentage_of_normal, pci, _norm_fitdict), `Model/Eto` (pet), `Model/Masked` (spi and percentage_of_normal of masked arrays, scale >= 2) | logging; masked arrays in the other functions and at scale 1 |
| `eto.py` | `Model/Eto` | - |
| `palmer.py` | `Model/Palmer` (water balance, coefficients, Z index, pdsi), `Model/PalmerSpell` (the state machine of statements 170-220, _assign, _case, _finish_up) | warnings |
| `__main__.py` | `Model/Parallel` (chunks, workers as programs over shared memory, all interleavings), `Model/Cli` and `Model/Compare` (validation with the tolerance of coordinates, merged data sets with the outer join of differing coordinates, years of the time coordinate, units, daily values in 366-day years and back, shared arrays, every index except palmers up to its first exception, output files), `Model/Argparse` (the option table, how argparse reads a command line, `main`, calibration years that are not given), `Model/Attributes` (valid ranges) | chunk sizes and attributes of the output other than `units` and the valid range, `_log_status` |
| `__spi__.py` | `Model/SpiCommand` (`main` from the command line on, calibration years that may be `None`), `Model/SpiTool` (complete runs: trimming, fitting data sets, shared arrays, fitting and SPI by workers, output, saved and loaded parameters), `Model/Parallel` (chunks, interleavings), `Model/Alias` (one grid cell: fitting and SPI with their in-place writes), `Model/Cli` (validation, fitting file names), `Model/Argparse` (the option table) | attributes other than units and the valid range; for divisions, single time series and time-first grids the exception is raised at once where the code raises in the workers or when building the output |
| in-place writes of `compute.py`, `indices.py`, `eto.py` | `Model/Alias` (heap of buffers) | views that are not whole contiguous buffers |

Files are maps from names to lists of variables (dimensions, shape, units, values): netCDF and xarray are
modelled only as far as the tools depend on them (lookup by name, dimension order, `open_mfdataset`, assignment, overwriting of the
output file). In a merged data set a variable is looked up in the first file that has it (xarray reports variables of two files
that differ; the theorems assume that they do not). When common coordinates differ, all variables are put on the sorted union of
the coordinates, with NaN where a file has no value. The year of a value of the time coordinate is an external function `yearOf`.

### Not modelled

netCDF/xarray beyond the above, argparse beyond what the two option tables use (no positional arguments, no short options, no sub-commands; the
text of messages), logging, warnings, numpy masked arrays except for C110 and C111, dtype conversions
(everything is float64 or int), pickling/starting of processes, memory exhaustion, rounding in the theorems marked exact.

## 2. Trusted base

* Lean's kernel; the axioms `propext`, `Classical.choice`, `Quot.sound` (no other axiom; `#print axioms` on
  every theorem of MANIFEST.json: `AXIOMS.md`).
* The reading of Python/numpy/scipy semantics written in the comments of `Verif/Base` and `Verif/Model`.
* The correspondence model <-> code: by hand, function by function.

## 3. Properties: what is modelled, how it is proved

Where the code violates the property, the negation is proved on a concrete witness (`..._fails`), and the
strongest true statement is proved as `..._partial`.

| id | model | proof |
|---|---|---|
| C01 | transform_to_366day, transform_to_gregorian over year loop | induction on number of years; datetime day count proved equal to sum of year lengths |
| C02 | transform_to_366day | loop invariant: after k years the first k*366 slots agree with the slot specification |
| C03 | gregorian_length_as_366day | induction; true for whole years; **false** for partial final years (length is that of the truncated data, transform yields years*366): witness + `_partial` |
| C04 | transform_to_366day | non-leap partial year with >= 60 days: proved; **false** for leap final years and < 60 days (exception): witnesses |
| C05 | compute_days with a proleptic Gregorian ordinal (datetime) | arithmetic; positivity of month lengths |
| C06 | reshape_to_2d | div/mod arithmetic; case analysis of shapes |
| C07 | np.convolve(valid) + padding | exact windows for 1 <= n <= length; **false** for n > length: exact result |
| C08 | count_zeros_and_non_missings | list counting, permutation invariance |
| C09 | spi, spei final clip | np.clip with NaN; for all parameters |
| C10 | spi control flow | case analysis; value-level totality for each branch |
| C11 | window -> spi and spei pipelines | NaN absorption through sum, transform, clip |
| C12 | transforms per column | column extensionality of transform_fitted_gamma / pearson |
| C13 | calibration slice | Pearson: proved for all four parameters given p0 columns; gamma: **false** through the zero probability computed on the entire record: general theorem (`C13_every_fails`, strict monotonicity of the mixed probability in the share of zeros), witness + `_partial` |
| C14 | adjust_calibration_years + slices | index arithmetic; **false** for periods ending one year after or before the record: exact selection and witnesses |
| C15 | value -> probability -> ppf | monotone composition (cdf/ppf monotone as assumption) |
| C16 | zero handling | Pearson proved; gamma **false** (zeros become NaN): theorem stating that gamma SPI of a zero is always missing |
| C17 | amin < 0 guard | proved when no value is missing; **false** otherwise, for every record with a missing value: nothing is clipped (`C17_kept_fails`, `C17_spei_kept_fails`), witness `C17_fails` |
| C18 | spi with/without parameters, transform_fitted_gamma with given parameters | unfolding both paths to the same column function; value of each cell for given parameters |
| C19 | heap model | witness of mutation; exact characterisation of when the input is unchanged |
| C20 | spei | depends on (p - pet) only, element-wise |
| C21 | _norm_fitdict | association-list semantics; idempotence; also: spi does not call it (witness KeyError) |
| C22 | gamma fit | log(cx) = log c + log x; cdf a (x/scale) |
| C23 | gamma fit | strict Jensen for log => A > 0; algebra for alpha*beta = mean |
| C24 | L-moments | closed form of sorted sums; Gini-type identities; equality analysis |
| C25 | L-moments | sorted permutation; affine algebra |
| C26 | pearson_parameters | **false** (fit raises for degenerate samples): witness + exact condition |
| C27 | transform_fitted_pearson | case analysis of the four optionals |
| C28 | percentage_of_normal | algebra over calibration means |
| C29 | percentage_of_normal | exact condition for a result, ValueError otherwise; **false** for daily data (checks with 12), for periods after the record and for reversed periods (accepted, all values missing): witnesses, general falsity + `_partial` |
| C30 | eto_thornthwaite | sign analysis; **false** when all months are freezing / less than one year: witnesses |
| C31 | pet + eto validators | **false** at +-90 (strict comparison): witness; accepted set proved exactly |
| C32 | _daylight_hours | arccos range, symmetry; mean over days |
| C33 | pci | **false** for month table (29/28 instead of 60/59): witness; bounds for what is computed |
| C34 | eto_hargreaves | **false**: proved that it raises for every input of size > 1 |
| C35-C37 | _calc_water_balances | per-month case analysis, induction over months |
| C38 | coefficients + CAFEC | sums over calibration years |
| C39 | x1/x2 update, ppr | invariant by induction; probability range: characterised |
| C40-C42, C45 | backtracking state machine | invariants over (k8, arrays); witnesses for IndexError and overwriting |
| C43 | NaN propagation | **false**: witness, general theorem of the collapse |
| C44 | pdsi with fitting params | unfolding; key validation |
| C46-C48 | chunk computation, shared memory interleavings | arithmetic; induction over interleavings; timeseries split is **false** |
| C49 | worker counts | **false** for all_but_one on 1 CPU: witness + `_partial` |
| C50, C51, C56 | CLI decision logic | case analysis of arguments |
| C52 | unit conversion tables | case analysis |
| C53 | dimension orders | **false** for (time, lat, lon): witness + exact set |
| C54 | shared arrays + in-place write | heap model witness + `_partial` |
| C55 | module-level array table, monthly and daily data | state-machine witness + `_partial` (simulation between one process and new processes) |
| C57 | get_tolerance | min/max reasoning; **false** on one-point axis (exception) |
| C58 | sign_change | sign table |
| C59 | rmse | Euclidean norm (Mathlib); binary64: changing the sign of a difference does not change its square, relative errors of squares, sum, division and root |
| C60 | reshape_to_divs_years_months | **false** for more than one year: proved rejection; layout for 12 columns |
| C61 | pdsi on records that end before December | general negation: padding months take part in all sums |
| C62 | a record continued later | general negation: the balance starts again from an empty soil |
| C63 | calibration periods of pdsi | slices with negative bounds; `_partial` inside the record, wrap-around and IndexError outside |
| C64 | eto_thornthwaite | monotonicity of the real power, of the cubic heat-index exponent and of the hot-month polynomial; in binary64 every rounded operation of a month's value is monotone and the coefficient is not negative (values shared by both months: heat index, exponent, daylight), the power function is assumed monotone |
| C65 | _apply_to_subarray_spi for divisions | size argument: every chunk of two or more divisions raises |
| C66 | process_climate_indices | phases of a run; frame lemmas for files and shared arrays; place-by-place induction over chunks, rows and columns |
| C67 | dimension order (time, division) | same machinery: rows at one time are taken as series; concrete run with a different result |
| C68 | complete runs of the SPI tool | one cell (heap model) -> one row -> chunks -> loop over scales; invariant: the shared series after the pairs processed so far; **false** for zeros after scale 1: witness + `_partial` with the exact series |
| C69 | saving and loading run | C73 gives the contents of the file, C72 the run that loads it; **false** for gamma and scale 1 with zeros: witness + `_partial` |
| C70 | SPI tool, divisions and time series | general negation; second theorem independent of the workers |
| C71 | SPI tool, daily records with an incomplete year | general negation: announced length (C03) against length of the converted array |
| C72 | loaded parameters | exact behaviour (position) for all files; **false**: witness |
| C73 | saved parameters | frame lemmas for the fitting arrays through all later scales; **false** for zeros: witness + `_partial` |
| C74 | main tool, daily divisions | general negation by lengths: results are cut from 366-day years the values were never put into |
| C75 | main tool, daily grids | general negation for incomplete years; `_partial`: day-by-day correspondence of the two conversions (`Spec/Calendar.SameDays`) |
| C76 | main tool, daily temperatures | general negation: month number of a day index; `_partial` for `--index pet` |
| C77 | accepted inputs with different coordinates | **false**: a complete run, and in general the union of both grids with values only at common places (gather, sorted union, induction); `_partial` from C66 |
| C78 | one-row grids | general negation from C57_fails; `_partial`: validation does not use the comparison |
| C79 | tolerance of coordinates | exact characterisation of `np.allclose` on finite axes; general negation for fine axes far from 0 |
| C80 | bound of the Palmer indices | `Spec/PalmerRules` gives the admissible steps; every month follows the one before (C81); the bound is the fixed point of the recursion; `_case` is a convex combination |
| C81 | Palmer's recursion | relation `Rules.Follows` between consecutive months; beginning of spells via the invariant of the probability; negation by a concrete record |
| C82 | resolution of undecided months | exact effect of `_backtrack` and `_assign` on the cells (`Lemmas/PalmerBack`), plus the invariant of the month loop |
| C83 | Pearson III fit matches the sample | second L-moment of the fitted distribution by the published formula (`Spec/Pearson`); mirror by symmetry of the sample L-moments |
| C84 | gamma SPI as published | `Spec/McKee` (accumulation, sample, Thom's estimates); chain of the pipeline lemmas over ℝ; negation for zeros |
| C85 | Pearson SPI with zeros | same samples, fit by C83; case analysis of the masks; comparison of the fitted mean with the mean of positive values |
| C86 | Palmer's Z-index as published | `Spec/PalmerZ` (two-layer soil with min/max, coefficients, weights as functions of the month number); the month loop computes its terms by induction; falsity when a mean absolute departure is zero |
| C87 | Palmer treats wet and dry spells alike | `Spec/PalmerMirror` (a month with wet and dry exchanged); simulation between the spell machine on a history and on its negative (states equal under exchange, order and probability invariants, nothing but zero left over after an onset); counterexamples at a drought onset and at ties |
| C88 | Appending new data leaves earlier values unchanged | `Props/Extend` (percentage of normal, Pearson, gamma), `Props/ExtendEto`, `Props/ExtendPalmer`; each pipeline stage on `x ++ y` compared with the stage on `x`; counterexamples for gamma (zeros counted over the record), clipping, heat index and resolution of undecided months; `Props/McKeeOutside`: exactly when the gamma index changes |
| C89 | SPEI is the SPI of the shifted water balance | `Props/Spei`; stage-by-stage comparison of the two pipelines; counterexample for balances below -1000 |
| C90 | Indices do not depend on the unit | `Props/PearsonUnit`; L-moments, parameters, thresholds and probabilities under `x ↦ a x + b`; `PearsonFamily` is the only assumption on the Pearson distribution function; counterexamples for the threshold 0.0005 and the gamma SPEI |
| C91 | Only differences of years matter | `Props/Years`; each stage commutes with a shift of the years; PET for equal leap patterns; counterexample for February |
| C92 | Scale k is scale 1 of the k-step sums | `Props/Years`; from the stage decomposition of `spi` and `percentage_of_normal` |
| C93 | Both tools write the same SPI | `Props/TwoTools`; from the pointwise theorems of both tools; counterexample from the zeros the SPI tool overwrites |
| C94 | More rain in the current month never lowers the current PDSI | `Props/PalmerMono`, `Props/PalmerMonoRecord`; the last month keeps its own value (`Lemmas/PalmerLast`), closed form of that value in the states normal, wet and dry, monotone in Z; Z of the last month is affine in its precipitation (specification of C86); rational runs transferred to the reals (`Lemmas/PalmerCast`); counterexamples |
| C95 | Soil layers stay within their capacity in float64 | `Props/Float64Soil`, `Lemmas/Soil64`; invariant of the month loop with an explicit slack for rounding; counterexamples by running binary64 in the kernel |
| C96 | CAFEC coefficients in float64 agree with exact arithmetic | `Props/Float64Soil`; false: two records run in exact and binary64 arithmetic; `Props/Float64Drift` (partial): accurate when the potential sums are not tiny |
| C97 | k-step sums are accurate in float64 | `Props/Float64Sums`; relative error calculus (`Lemmas/Near64`, `Lemmas/Rel64`) by induction over the tree of additions |
| C98 | Percentage of normal is accurate in float64 | `Props/Float64Sums`; error calculus along C28 |
| C99 | Concentration index is accurate in float64 | `Props/Float64Sums`; error calculus for sums, squares and quotient |
| C100 | Rounding errors of the water balance grow at most linearly | `Props/Float64Drift`; the exact month is 1-Lipschitz in the total soil water, induction over months |
| C101 | Main tool: coordinates are carried over | `Props/CliMatch`; case split on agreeing coordinates |
| C102 | spi, spei, percentage_of_normal at scale 1 | the columns of the reordered record are permutations of the columns; sums, means, L-moments and counts are invariant under permutation; status and parameters of the transforms are therefore equal; for PET the heat index is a function of the monthly means and the length of the month depends on the leap type only |
| C103 | spell machine in binary64 | `Below A x`: finite and at most A; the recursion keeps `inner M` (a contraction absorbs relative errors), the accumulated wetness saturates below 2^200 (a sum that is rounded back), the probability is never NaN because its numerator is not zero; the interpolation of `_case` by monotone rounding |
| C104 | _estimate_lmoments and fit over binary64 | relative errors of the three running sums (induction over the sorted sample, products with integers round exactly when small), then of the two differences; acceptance away from degeneracy; **false** at degeneracy (constant sample accepted, non-degenerate sample refused): witnesses |
| C105 | parse_args with the option tables of both tools | a setting is recognised by its tokens; induction over the settings (C105_read), the documented form of any arguments is read back (round trip), permutation of settings, unknown and ambiguous texts are refused anywhere in the line, abbreviations = full names, conversely an accepted line consists of settings (induction over the parser); **false** for values that begin with a dash |
| C106 | main of __main__.py with calibration years that are not given | years given = the tool of the other claims; PET does not depend on them; a start year before the record makes the end year irrelevant; otherwise **no run with a result** (TypeError from the comparison) for PNP, SPI, SPEI, from the row-by-row description of a finished run for any index function |
| C107 | main of __spi__.py with --load_params | with all parameters given the transforms do not look at the years (both distributions); congruence through rows, stages, scales and the run |
| C108 | _get_variable_attributes of both tools; whole runs | a value of the output belongs to the series of a place (C66, C68); the transform back to Gregorian years only selects values; SPI and SPEI are clipped to the declared range. PNP and PET are not: a finished run with 2000, and PET without upper bound near the freezing point |
| C109 | _pearson_fit, both branches | value by value: outside and inside the support, both signs of the skew; the masks of dry values are set before "one minus" is taken, so dry values are excluded and shown to differ |
| C110 | spi, percentage_of_normal of masked arrays (scale >= 2) | the mask is dropped by np.convolve, so the run is that of the data under the mask; equality with the plain function, witness with a fill value |
| C111 | is_data_valid | list membership; counterexample for all masked arrays whose visible elements are NaN |
| C112 | pet, _monthly_mean_daylight_hours | sign of the declination by calendar month from bounds of pi, monotonicity of tan and arccos, then C30's formula |
| C113 | processIndices, computeWriteIndex, parallelProcess | each computation finishes if and only if it does at every place (the converse direction is C66), induction over the list of computations; exact conditions from C10 |
| C114 | mainTool: readMain, processIndices, spi, spei, pet, percentageOfNormal | all scaled indices at once (`C114_scaled`, `C114_scaled_temp`) by the same composition per output; composition of C105 (reading), C106 (years given; none needed for PET), C113, C116 and C117 (finishing) and C84, C85, C11, C28, C30, C115 (values) |
| C115 | spei | C89 (SPEI is SPI of the raised balance), invariance of accumulations, mean, L-scale and support under a constant, then C84, C85, C10 |
| C116 | processIndices for `spei` and `scaled` with a PET file | C113's induction over jobs made generic (runOutputs: every job reads its inputs, the shared array is replaced, worker rows, output file), then C115 and C113 for the condition on the values |
| C117 | processIndices for `pet`, `spei` and `scaled` with a temperature file | three phases (outputs before PET, PET, outputs that read the PET file just written), each an induction over its jobs as in C113 and C116; the phases are joined by the world between them (`Ran.append`); then C30, C31 and C115 for the condition on the values |
| C118 | spiMain, spiPrepare, spiScales, spiPair, spiCompute, spiSave | preparation succeeds for a usable input; one scale and distribution finishes if and only if fitting and SPI do at every place (the converse is C68 and C73), induction over the processing order with the shared arrays as invariant (`Live`); exact condition from C26 and C10 |
| C119 | spiTool (readSpi, spiMainOpt), C105_spi, C118_run, C118_exact | option parsing gives the command back (C105), both years given: spiMainOpt is spiMain; C118 for finishing and the files; `gammaIndex_of`, `pearsonIndex_of` for the values |
| C120 | processIndices and spiMain on the same grid | both files hold `spi` of a record (C113_run, C118_run; on daily values C122_run, C126_run); the records are equal where nothing was overwritten; negation from C114 and C119 on five years of data, one dry |
| C121 | fitOpNoYears, fitOpOpt, fitStageOpt, spiMainOpt, spiTool | the fit of one series raises TypeError unless it is the gamma fit of a series without accumulation; a stage in which every place succeeds or raises e, and one raises e, raises e (chunks, rows, cells); Pearson always raises |
| C122 | processIndices, computeWriteIndex, transformTo366, transformToGregorian, spi, percentageOfNormal | the general run theorem of C113 with the daily jobs; the two transformations of whole years are total and are `days366` and `calendarDays` of Spec/Days366; the exact criterion through C85 with 366 steps in a year |
| C123 | mainTool and everything below it | C105 and C106 (argument parsing), C122 (the run finishes), C84, C85 and C28 with 366 steps in a year |
| C124 | processIndices, computeWriteIndex, transformTo366, transformToGregorian, spei, spi, percentageOfNormal | the general run theorem of C116 with the daily jobs of C122; the water balance of years of 366 days is that of the days in years of 366 days; exact criterion through C115 with 366 steps in a year |
| C125 | mainTool and everything below it | C105 and C106 (argument parsing), C124 (the run finishes), C115 with 366 steps in a year; C125_scaled also uses C123 for SPI and percentage of normal |
| C126 | spiMain on daily values, transformTo366day, transformToGregorian | `spiRun_live_gen` for the years of 366 days (C03 for the length of the shared arrays), C118's induction over the processing order; exact condition from C26 and C10 with 366 steps |
| C127 | spiTool and everything below it | C105 and C126; `gammaIndexOf_of`, `pearsonIndexOf_of` with 366 steps; the days of ordinary years from `calendarDays` |
| C128 | spiMain and spiTool with `--load_params` | with parameters of all calendar steps `spi` of a series of the right length never raises (`spi_given`); induction over the scales with the six arrays of every scale kept in the shared memory (`LoadedArrays`); values from C72_position; years from C107 and C121 |
| C129 | spiMain and spiTool, twice | the saved file has the dimensions and sizes that `SpiLoads` asks for (`saved_loads`, from the fitting stage of every scale); C128 for the second run, C69 for its values |
| C130 | gamma_parameters over binary64 | relative error of the mean (sum tree), the scale is one quotient away from it, so shape times scale returns to the mean; the gap of two logarithms of equal amounts by kernel computation for the three float64 numbers within one unit of the true logarithm (ln 3, ln 5 bounded by the series of artanh) |
| C131 | _get_awc_bot, _calc_potential_loss, _calc_recharge, pdsi | C36 for capacities from one inch; below, induction over the months with the invariant that the lower layer is exactly 0 (needs three laws of the arithmetic, proved for exact numbers and for binary64) |
| C132 | gamma_parameters (compute.py:638-715) in binary64 | forward error analysis: signed sums (Lemmas/Signed64), logarithm of the mean, Thom's formula is no more sensitive than the reciprocal of the statistic; result compared with Spec/McKee on real numbers |
| C133 | eto.py day lengths (47-193) and pet in binary64 | all intermediate numbers of a day with rounding (Lemmas/Daylight64), limits compared by monotonicity of rounding; absolute error through sine, tangent, product and arc cosine (Lipschitz constants on the range up to 60 degrees, Lemmas/DaylightNear), sums and means by induction over the days and months |
| C134 | indices.pet, eto.eto_thornthwaite (196-288) in binary64 | logarithmic errors (Lemmas/LogErr) through means, powers, heat index, the cubic exponent (absolute error, from its polynomial form) and the final power, whose sensitivity to the heat index is explicit; day lengths from C133; `pow` is a parameter with relative error 2^-50 |
| C135 | indices.spi with gamma (69-204), compute.transform_fitted_gamma (760-831) in binary64 | C132 for the parameters, three roundings of the mixed probability (at most 1 because 1 + 2^-53 rounds to 1), Lipschitz clip; the gamma distribution function and the normal quantile are parameters with absolute errors eta and delta |
| C136 | indices.spei with gamma (207-346) in binary64 | rounding of the balance by monotonicity (range) and absolute errors; sums at least 1 (induction over the exact sums and closeness of the float64 sums); C89 and C135 |
| C137 | unit conversion in __main__.py (756-798) in binary64 | absolute errors of the five roundings of the route through Kelvin, relative error of the factor 25.4 |
| C138 | __main__.main to the PET file in binary64 | C105/C106/C117 for every number type, C133 (no exception), C134 (values) |
| C139 | __main__.main to the SPI and PNP files in binary64 | C105/C106/C113 for every number type, C135 with C135_accumulations, C98 |
| C140 | main tool for SPEI with a PET file or with temperature, in `B64` | C116 and C117 (any arithmetic) with C136 and C134 at every place; `spei_gamma_total` |
| C141 | Pearson fit and transform where fewer than four values are positive, exact and in `B64` | zero parameters through `pearsonFit` and `spi`; `C141_fails`, `C141_fails_float64` for a desert |
| C142 | `spi`, `spei`, complete runs of the main tool (monthly, from temperature, daily) and of the SPI tool (monthly, daily) for records of at most three years, any arithmetic | `timeStep_short`, `pearsonFits_short`, `fitted_short`, induction over the calendar columns; C113, C116, C117, C118, C122, C124, C126 for the runs |
| C143 | `percentageOfNormal`, `sumToScale` | order within a calendar step from the monotone division, for every rounded arithmetic; in exact arithmetic the change of one month adds the same amount to at most one of the sums of each calendar step if the scale is at most a year, and every sum is at most the total of its calendar step; in float64 sums (any order), means and quotients are monotone because rounding is; concrete counterexamples for scale 13 and for float64 within the calibration years |
| C144 | `spi`, `transformFittedGamma`, `transformFittedPearson` | equal calibration values give equal parameters (C13), and the transforms of a single value are monotone (C15); the gamma transform needs equal numbers of dry years in the whole record, concrete counterexample otherwise |
| C145 | `convertPrecip`, `percentageOfNormal`, complete monthly runs of the main tool, in `B64` | C98 again from data with two rounding errors (factor and product), then the exact invariance C28; the run through C113 as in C139 |
| C146 | `spiTool`, complete monthly runs, in `B64` | C118 (any arithmetic) with C135 at every place; `fitted_gamma`: the gamma fit is never refused; `remaining64`: the record left after scale 1 |
| C147 | `convertPrecip`, `transformTo366day`, `percentageOfNormal`, `transformToGregorian`, complete daily runs of the main tool, in `B64` | C122 (any arithmetic); `place366_near`: two more rounding errors for 29 February; `pnp_nearC` and the exact invariance C28 |
| C148 | `spi`, `transformTo366day`, `transformToGregorian`, complete daily runs of the main tool, in `B64` | C122 (any arithmetic) with C135 at every place, 366 steps a year; `day_next`, `accum_next`: the rounding of 29 February in the moving sums |
| C149 | `spiTool`, complete daily runs, in `B64` | C126 (any arithmetic) with `gamma_days64` of C148 at every place; `withoutZeros_next`: a rounded mean is zero exactly if the exact mean is, so the same days are left after scale 1 |

## 4. Log of changes to this design

* `Spec/RealExt`, `Spec/TrigReal`: real functions behind the external numerics, needed once C22-C24, C30-C32 and C64
  were stated over the reals instead of an abstract field.
* `Spec/Thornthwaite`: the formula of Thornthwaite (1948) as published, so that C30 and C64 do not refer to the model.
* `Spec/PalmerRules`: Palmer's rules for the three indices of consecutive months, needed once C80 and C81 were stated; `Spec/Pearson`: L-scale of a Pearson type III distribution, for C83; `Spec/McKee`: the
  published SPI on a record of reals and missing values, for C84, C85 and C10_pearson_exact; `Spec/PalmerZ`: Palmer's Z on reals, for C86;
  `Spec/PalmerMirror`: a month with wet and dry exchanged, for C87; `Spec/Days366`: years of 366 days, for C122 to C129.
* `Model/PalmerSpell` was split from `Model/Palmer`: the spell state machine needs only the Z values.
* `Model/Alias` (heap) is proved to agree with the value-level model (`Lemmas/Alias`, `Lemmas/AliasFit`), so C19 and C54 are
  about the same functions as the other properties.
* `Model/Cli` grew from decision logic (C50-C53, C56) to complete runs with files and shared arrays (C51, C55, C66, C67).
* `Model/Cli`: the first model left out the daily conversion, took the first year of the data as given and joined files by
  concatenation. Now these steps are modelled (`dailyValues`, `outputValues`, `firstYear`, `alignVar`), and C66 and C67 are about the years of
  the time coordinate and about daily data, too. C55_partial got two hypotheses (monthly data, equal coordinates).
* `Model/Compare`: the comparison of coordinates, before a parameter `cmp` of the validation, is now also modelled (`npCmp`); theorems that do not
  depend on it still quantify over all `cmp`.
* `Spec/Cli.Holds` said nothing about the number of values; it now does, so C66 gives the length of every output variable (needed by C74, C75, C77).
* Properties C61-C67 were added after reading the code for the model; each started as a claim that looked true.
* `Model/SpiTool`, `Spec/SpiTool` and `Lemmas/Spi{Tool,Stage,Pairs,Scales,Prepare,Run,Load}`: complete runs of `__spi__.py`, for C68-C73
  (`Props/SpiTool`, concrete runs and negations in `Props/SpiToolRuns`). The first witness for C73 (two years) was wrong: with fewer than
  four non-zero values the fit returns zeros in any case; the present one has six years.

## 5. Tests against wrong programs

`seeded/LOG.jsonl` has one line for each wrong program tried. "theorems_failed" are the theorems of MANIFEST.json whose proof no longer
checks, directly or through a lemma it uses. This is weaker than being false: a proof can break because it follows the text of the
definition, although its statement still holds, so the list contains more theorems than the edit falsifies. "failed_directly" names the
declarations at which Lean reported an error; everything else in "theorems_failed" only uses one of them. For most edits only a lemma failed
directly, and the theorems were not rechecked with a repaired lemma. A line therefore shows that the edit does not pass unnoticed; it is not
by itself a proof that the statement is strong enough. For the few lines with "refuted" there is more: the negation of the statement of that
theorem (for C01, C02, C06, C09, C14, C18, C28, C35, C36, C37 and C58 of its instance for exact rationals) was proved in Lean for the wrong program; the proof is in the line, and the
same text fails for the model. That the difference matters is shown by the edit of `rmse` to absolute differences: the proof of `C59_distance`
broke, but its statement is true for that program too; `C59_value` was added. In the same way `C18_gamma` is true for a gamma
transform that ignores given parameters (both of its sides become the same call); `C18_given` was added and is refuted for it. Likewise `C46_spi` is listed as failed for an edit of
`spiChunksLoop` that turned out to be equivalent. The other lines without "refuted" were not examined in this way; some of them may be of
the same kind. "properties_expected"
was written down before the test; a "note" says what happened where no theorem of these properties failed, and which edits did not compile.
