# Formal model of jararias/sunwhere in Lean 4

(First version, written before the proofs; kept current. See the end for the trusted base.)

## Shape of the model

* `Verif/Num.lean` - class `Num F`: the arithmetic vocabulary used by the formulas (numpy/numexpr
  operations, including the two different `%`, `np.where`, rounding to binary32, truncation).
  All formulas are written once over an arbitrary `Num F`. `Scalar F` adds comparisons and
  conversions between numbers and integer nanoseconds.
* Instances: `XR` (exact reals plus NaN; the numeric theorems are about it), `Real` (auxiliary
  shadow used in proofs), `Arr F` (numpy arrays with broadcasting), `DA F` (xarray DataArrays with
  named dimensions). Structural theorems (shapes, pointwise behaviour, NaT, use-case agreement) are
  proved for **every** `Scalar F`, hence also for IEEE arithmetic, whatever its rounding.
* `Verif/Arr.lean` - numpy broadcasting; `Verif/Calendar.lean` - numpy's datetime64 decomposition.
* `Verif/Psa.lean`, `Soltrack.lean`, `Iqbal.lean`, `Nrel.lean` - the seven engine modules, with their
  1-, 2- and 3-dim paths.
* `Verif/Core.lean` - validation, `evaluate`, `sites`, `regular_grid`, `transect`;
  `Verif/Sunpos.lean` - the `Sunpos` class. Exceptions are values (`Except PyErr`).
* `Verif/Utils.lean`, `Cli.lean`, `Jpl.lean` - the remaining functions with their own logic.
* `Verif/Spec.lean` - specifications independent of the code (unit vectors, calendar by
  day-counting, circle distance, ...). `Verif/Props/*.lean` - the theorems, one file per topic.

## How each property is modelled and proved

| id | what is modelled | proof |
|----|------------------|-------|
| C01 | dispatch table, `evaluate`, the use cases, any `Scalar F` | case analysis on the table |
| C02, C03 | `check_timelatlon` on lists of any length, NaN filter | list induction; instantiated at XR |
| C04 | argument ranks and lengths, order of the checks | case analysis |
| C05 | array programs of the seven modules with broadcasting, `Sunpos.__init__` asserts | relation `Lift` (array program vs cell program) closed under all operations |
| C06, C07 | mask, scatter | induction on the mask; master lemma "cell = cell program" |
| C08 | the three paths of each module | `Lift`, then equality of cell programs (for all F, or over XR) |
| C09 | both engines | equality over the reals, periodicity lemmas for both `%` |
| C10, C11 | conversion to whole UTC seconds | master lemma |
| C12 | time-zone objects with/without `zone`, localisation as an external function with a recorded soundness assumption | direct |
| C13, C14 | cell programs over XR | real analysis: bounds of refraction, parallax; explicit witnesses for the negative parts |
| C15, C16 | same | trigonometry (`Complex.arg`) |
| C17, C18, C19 | same, tables of nrel included | interval bounds on the series, ns time range |
| C20-C26 | methods of `Sunpos` over XR | real analysis |
| C27-C33 | methods of `Sunpos`, times as integer ns | direct, floor/trunc arithmetic |
| C34 | refraction argument as a Python value | direct |
| C35 | refraction formula | derivative/monotonicity bounds |
| C36 | numpy datetime64 algorithms on integers | `omega`, induction over days |
| C37 | `evaluate` returns a dict | direct |
| C38 | character lists, float parsing as an external function | direct |
| C39 | display formula over XR | floor arithmetic |
| C40, C41, C45 | line lists, a file-system/network model with effects (oracles for the server, for interrupted writes and for the parsers) | characterisation of `list.index`; invariants over histories of calls; floor division; calendar lemmas of C36 |
| C42 | `calc_residues` on whole frames, wrap-around on one pair | case analysis on reals, list lemmas |
| C43, C44 | cell programs | direct / master lemma |
| C46 | nrel cell program over XR | vector algebra (topocentric direction) |
| C47, C48 | true solar time and incidence against the returned position | bounds on series and on sidereal time, trigonometry |
| C49, C50, C51 | `calculate_position` and `at` with environment oracles (clock, `to_datetime`, `tz_localize`) | case analysis on the monadic program; C13-C31 for liveness |
| C52 | bulk scores on lists of reals | list sums, Cauchy-Schwarz, sorted lists |
| C53 | reference data of `run_benchmark` on the file-system model | direct |
| C54 | the time and position functions of all four algorithms against `Verif/Ephem.lean`, a separate specification (Keplerian ellipse, equation of the centre, mean sidereal time) | the elements of each algorithm are compared with the reference one by one with explicit error bounds (for nrel the leading terms of its series are matched with the equation of the centre and the rest is bounded by the sum of amplitudes; for iqbal the day angle is first compared with the mean longitude, century by century of the Gregorian calendar, and its Fourier series with the expansions of arcsin and of the reduction to the equator), then propagated through arcsin, arctan2 and the local frame as chords |
| C55 | the programs of psa over `Rd A`, the numbers of any arithmetic `A` that meets an accuracy specification (`Verif/Round.lean`), against the same programs over XR | forward error analysis: `Ap a x M ε` (the computed `a` is a number within ε of the exact `x`, and the magnitude of x is at most M) is propagated operation by operation, `Apm` is the same for angles up to whole turns; branches (`where`) are handled by showing that both sides agree where rounding can change the side, or by excluding a neighbourhood of the threshold |
| C56-C59 | `_cli/solar_chart.py`: the checks, the instants of every curve, labels and markers, the mapping to the figure; zones are external (`Zone`: localisation of one reading, of a range, offset) and pandas' reading of `day/month/year` strings is modelled (`parseSlashed`) | inversion of the monadic program; master lemma for the points (`Shows`); calendar of C36 |
| C60 | the programs of soltrack over `Rd A` (`Verif/RdSol.lean`, `RdSolPos.lean`, `RdSolCell.lean`, `SolRefr.lean`) | as C55; the single-precision square root for the cosine of the latitude in the numpy engine gives the factor `κ` of the statement |
| C61 | the programs of iqbal over `Rd A` (`Verif/RdIqbal.lean`, `RdIqbalCell.lean`) | as C55; the refraction formula is shown Lipschitz, so no threshold is excluded |
| C62 | the program of nrel over `Rd A` (`Verif/RdNrel*.lean`) | as C55; the Fourier series are bounded row by row from the tables; the parallax and the refraction are perturbed analytically, and the tangent of the latitude is followed to the poles, where only its sign matters |
| C63 | as C54, two calls | both directions are close to that of the reference ephemeris (`position_close`), and chords and differences add up |
| C64 | the calls over `Rd A` against `Verif/Ephem.lean` | C54 for an exact call at the same place, C55 and C60-C62 for the distance between the two; chords add up, and the zenith angle of the exact call is bounded away from the zenith because that of the reference is |
| C65 | `Sunpos.sunrise`, `sunset` of one call, the zenith of another, both against `Verif/Ephem.lean` | bound of the daily motion of the reference sun (`Verif/RDrift.lean`: its elements at two instants); the sun that keeps the declination and equation of time of `t` is up exactly when its hour angle is below the sunrise angle; chords add up |
| C66 | the methods of `Sunpos` over `Rd A` (`Verif/Round.lean`) | the error algebra `Ap` for elevation, cosz, eth, tst, incidence; the sunrise angle by its residual on the horizon (the error of `arccos` near the ends is not bounded, that of its cosine is); casts to int64 by truncation; airmass by perturbation bounds for `rpow`/`log` |
| C67 | `Sunpos.sunrise`, `sunset` of one call over `Rd A`, the zenith of another over `Rd B` | C65's comparison of the two suns for exact calls at the same instants, C64 for the distance from the exact calls, C66 for the times |
| C68 | zenith and azimuth of a call with refraction over `XR`; `standardRefraction` (Verif/RefrSpec.lean) is an independent specification | each correction against Saemundsson's formula (Verif/RefrSpec.lean: cotangents of nearby arguments; for iqbal two rational functions), C54 for the true position, the apparent elevation as a 1-Lipschitz function of the true one |
| C69 | the call with refraction over `Rd A` against `Verif/Ephem.lean` and `Verif/RefrSpec.lean` | C68 for an exact call at the same place, C55 and C60-C62 (with refraction, away from the threshold below the horizon) for the distance between the two |
| C70 | two calls, over the reals and over `Rd A`, against each other through `Verif/Ephem.lean` | C54/C64/C68/C69 for each; the reference sun moves at most 360.6 degrees a day in a fixed horizon (derivative bounds of the ephemeris) and the horizon turns by the change of latitude and longitude; triangle inequality of angles (Mathlib, `InnerProductGeometry`) |
| C71 | `true_solar_time`, `incidence`, `eth` of a call, over the reals and over `Rd A`, against `Verif/Ephem.lean` and `Verif/RefrSpec.lean` | C30, C32, C21 (formulas of the methods) and C66 (their rounding) with C54, C64, C68, C69; the mean sun of UTC is the mean longitude less the sidereal time to 2.6e-5 rad (identity of the two polynomials) |
| C72 | `Verif/CliText.lean`: `f'{x:.4f}'`, `%H:%M:%S`, `str(int)`, the dict display (a repeated key keeps its place and takes the later value), on top of the command of C51; over the reals and over `Rd A` | decimal digits by induction, read back by the `float` of C38; lookup in the dict by induction on the items; then C51 with C54, C68, C64, C69 and the triangle inequality of angles; success in floating point from C66 |
| C73 | no new code: the refraction of every algorithm (`Psa.refract`, `Nrel.refract`, `Soltrack.refract`, `Iqbal.refract`), `eth`, `airmass`; over the reals and over `Rd A` | the correction is positive above the horizon and smaller than the depression beyond the dip (`Verif/RSign.lean`, rounded in `Verif/RdSign.lean`), applied to the unrefracted cell of the same call, whose zenith is that of the reference by C54 / C64 |
| C74 | `draw_solar_grid` (lines 123-130, 178, 190-199: `np.interp(.., period=360)`), `draw_background_grid` (`transform`, ticks) (`Verif/Interp.lean`; numpy's `interp` and `arr_interp` modelled from its source, its argsort by any function that sorts) | `OnCurve` says what a point of a curve on the circle is; induction over the sorted, extended samples; ranges of the curves from C13, C14, C57, C58 |
| C75 | the rows `Day of week`, `Date`, `Time` and the whole table of `calculate_position` (`Verif/CliHead.lean`): `strftime` with the names of the locale as parameters, `str.split`, `str.capitalize` | C36 for the date, induction in both directions for the week (`IsWeek`), lists of characters for the text |
| C76 | `sunwhere_ephemeris`, `get_bulk_ephemeris_errors`, `print_bulk_errors` and `run_benchmark` from the reference data to the tables of the ephemerides (`Verif/BenchReport.lean`); pandas' reshaping is modelled by its result, the columns of pvlib and sg2 are any columns | C42 for the residues, C52 for the order of the scores, C54 and C83 for the accuracy; `keptResidues`, `reportTables`, `printedNames` say what the tables hold |
| C77 | `airmass` and `daylight_length` of a call, over the reals and over `Rd A`, against `Verif/Ephem.lean`, `Verif/RefrSpec.lean` and the published airmass formulas (`airmassAt`) | the airmass is 1 up to some zenith angle and then the reciprocal of a decreasing function whose slope is at most that of the cosine; with C54, C68 (position), C64, C69 and C66 (rounding); daylight length by Lipschitz bounds of tan and arccos |
| C78 | `Verif/BenchClear.lean`: `add_clearsky_irradiance`, `get_bulk_clearsky_errors`, the clear-sky tables of `print_bulk_errors`, `run_benchmark`; SPARTA is a parameter (three functions applied row by row) | rows in daytime and columns by induction on the rows, tables as in C76; accuracy from C54 by the Lipschitz bound assumed of SPARTA |
| C79 | `Verif/Labels.lean`: coordinates attached by the constructor, xarray's alignment (inner join; exact for `where`), union of coordinates, all methods over labelled arrays | every operand of every expression has indexes that are those of the object, so alignment is the identity (structural induction on the expressions); then the values are those of the unlabelled model |
| C80 | `Verif/Localize.lean`: pandas' `tz_localize(zone, ambiguous='infer')` (candidates a day before and after, chunks of ambiguous readings, the one switch), the zone being its offset at each instant | candidates are exactly the instants with the reading, from the two regularity conditions on the zone; runs by induction over the list; position of the switch from the order of the times |
| C81 | `Verif/Tests.lean`: tests/conftest.py and tests/test_consistency.py as programs that end normally or with AssertionError; the random draws are arguments | C63 (agreement of the algorithms), C05, C08 (use cases agree); the counterexample to the azimuth condition from the direction of the sun of iqbal (C15) and of nrel (C54) near the zenith; `TestsFloat.lean`: the tests of the algorithms in every rounding arithmetic, from the error bounds C66, C68 and C69 |
| C82 | `Verif/Meta.lean`: the methods of `_base.py` once more, over names and attributes: the formulas of `Sunpos.lean` instantiated at a type whose operations are xarray's rules for names and attributes, for both attribute rules (before and since 2025.11) | computation (the metadata depend on the time zone and the arguments only); C13, C14, C20 for the ranges, C18 and C21 for the wrong one |
| C83 | the same objects as C54 and C64 | C83_refraction by cases over the backends; geometry: directions at most E apart have azimuths at most arcsin(sin E / sin zenith) apart, from the angle of C54 and the range of C13; rounding from C55, C60, C61, C62 |
| C84 | the same objects as C54, with `true_solar_time` of C30 | the sun each algorithm computes before parallax and rounding (C15 and C46), its zenith angle as `heightAt` of latitude, declination and hour angle; `heightAt` is monotone in the distance from noon and 1-Lipschitz in the hour angle, and is |lat - dec| at noon; C47's comparison of hour angle and true solar time; rounding from C55, C60, C61, C62 |
| C85 | `safe_import`, the loading of `__ALGORITHMS__` and of the package, and `evaluate` and the use cases with the table that was loaded (`Verif/Install.lean`); what `import x` does for an outside package is any function of its name | the table has one of two forms; with the module there the calls are those of the complete model, without it the checks come first (as in C01-C04) and then AttributeError |
| C86 | programs as sequences of array creations, calls, reads and writes over a memory of arrays (`Verif/Heap.lean`): each object has seven arrays of its own (`np.array` copies in the use cases and in `Sunpos.__init__`); `latitude`, `longitude`, `ecf` and `eot` hand out the array itself (`rename(name)` and `assign_attrs` of xarray make a new DataArray on the same data), everything else is computed into new arrays. The numbers in the arrays are modelled; coordinates and attributes of the DataArrays, and pandas indexes, are not | invariant over all histories: the objects' arrays are disjoint from each other and from every array held that is not one of the four attributes, and two arrays held coincide only if they come from the same one of the four; then induction on the history |
| C87 | nothing new: the model of the algorithms, the calendar of C36, the sun of C58 | the day of the year and the year fix the mean longitude to 3 degrees (all leap years between 1677 and 2262), the equation of centre is below 2.01 degrees, so the reference longitude stays in a quadrant window and its sine has a sign; C64/C17 bring it to the algorithm; C73, C84 and the spherical triangle give the sun above or below the horizon |
| C88 | nothing new | the southward component of the returned direction (C15; C46 for nrel) obeys the law of cosines cos lat * south = sin lat * up - sin declination; C87 gives the sign and size of the declination, C73 the height without refraction, C47 the hour angle at noon; the float theorem adds the distance of C64 |
| C89 | nothing new | the mean anomaly and longitude of the reference stay in windows determined by the day of the year (the 400-year calendar against the tropical and anomalistic year over 1677-2262), whence the distance and the two terms of the equation of time (centre, reduction to the equator as an arctangent); C54 and C64 carry the bounds to the algorithms, C19 excludes jumps by whole days |
| C90 | nothing new | as C70, but the hour angle of the reference is compared with the mean solar time: sidereal time minus mean longitude is 360 degrees a day to 1e-7, the rest is the drift of the equation of time (RDrift); triangle inequality on the sphere; C30 and C19 for true solar time |
| C91 | nothing new | the longitude of the reference stays within 74.4 (53.3) degrees of an equinox in the windows of dates (day of the year by C36, mean longitude, equation of the centre); the sine of the declination then has slope at least the cosine of that, by the mean value theorem; the equinoxes by the intermediate value theorem between 10 March and 1 April and between 10 September and 1 October (C87); C54 and C64 for the algorithms; monotonicity of tan and arccos for the length of the day |
| C92 | `speed_meter` (`Verif/Speed.lean`): random numbers, `int` of a text and times of the repetitions are parameters; pandas' `date_range` by minutes, `linspace` and `timeit.repeat` by their results; the calls of pvlib and sg2 return anything | C05 for the shape of the results (so that the divisor is the number of zenith angles), C01 and C05 for success and failure of the calls; `CountsPlaces` and `RngOk` say what `n_locs` means and what the documented ranges are |
| C93 | `pvlib_ephemeris`, `sg2_ephemeris` (`Verif/Speed.lean`): what the packages return is any list of bearings, elevations and distances | as vectors (`compassVec`): both angles give the same point of the sphere; C76 for the tables |
| C94 | nothing new; `arcBetween` (great-circle distance) and `Antipodes` are the specification | the hour angle of each algorithm is a function of the instant plus the longitude (C15, C46), so its zenith angle before parallax and rounding (`heightAt`, C84) is the distance from the point where it vanishes; triangle inequality on the sphere; C54 and C64 between algorithms and in floating point |
| C95 | `_cli/benchmark.py`: `plot_accuracy` up to the drawing (`accuracyFigure`: stack, order by mean absolute error, removed methods, names), the cell of `plot_exec_time`, the requests of `load_speed_tests`; `sort_values` is a parameter (any sort) | residue frame of C42/C76 column by column; the strip of a method as a filter of the stacked rows; C54 for the bounds, C92 for the speeds |
| C96 | `_cli/solar_chart.py`: `draw_solar_grid` with `include_solstice` and `include_equinox` (`drawSolarGridWith`), any Python value for them | the run of the grid split step by step into an equivalence, for the grid with the switches and for the one without, and compared; the days of the solstices by membership in the list of days |
| C97 | `_cli/benchmark.py`: `load_speed_tests` as a process with effects (a measurement, opening a file, completing it) that can be killed before each (`loadSpeedTests`); a file is absent, unreadable or a frame; chained assignment as in pandas 3 (lost) or before (kept), both; the concatenation of the frames is left as a list | postcondition of every step for return and for stop, by induction over cells and over methods; histories by induction; the cell of a frame by distinctness of rows and columns |
| C98 | nothing new | in the reference sun σ·sin δ = sin ε · cos x with x the longitude from the solstice: δ is at most ε, at least ε − tan ε · x²/2 (mean value theorem), at most ε − sin ε (1 − cos x); x grows between 606.6 and 650.1 radians per century; the instant by the intermediate value theorem on the longitude between the 10th and the 30th (bounds of C87), floored to nanoseconds; C54 (C64 in floating point) carries it to every algorithm, C91's monotony of the length of the day to sunrise and sunset |
| C99 | nothing new | the inverse distance of the reference ellipse is (1 ± e cos x)/(1 − e²) with x the true anomaly from the apsis, which advances between 606.6 and 650.1 radians per century; the extreme 1/(1 ∓ e) drifts with the eccentricity only; the parabola bounds of the cosine; the instant by the intermediate value theorem on the true anomaly between two days (C89's bounds on the anomaly), with the calendar of C36 across the turn of the year; C54 (C64 in floating point) carries it to every algorithm, C21 to eth |
| C100 | nothing new | the reference equation of time without whole days is the reduction to the equator minus the equation of the centre (C89), continuous and moving at most 20700 minutes per century; its sign on 12 May and 25 July by windows on anomaly and longitude, in February, October, November and January from C89; the intermediate value theorem between these days with the calendar of C36; C54 and C19 (C64's comparison of a float call with an exact one) carry it to every algorithm |

## Trusted base

1. Lean's kernel (4.33.0), and that the printed statements mean what they say in Lean/Mathlib: in particular Mathlib's
   `Real.sin`, `Real.cos`, `Real.arcsin`, `Complex.arg`, `Int.fdiv`, `List.mergeSort` etc.
2. Axioms: every theorem of the manifest depends at most on `propext`, `Classical.choice` and `Quot.sound`
   (`#print axioms`). No axiom is added, nothing rests on compiled code.
3. The model. Each definition cites the lines it models. What the theorems say about the program is as good as the
   translation; the translation was made by hand, formula by formula, and the tables of nrel were generated from the text
   of `ne_nrel.py`.

### What is modelled

* `_core.py` (dispatch, evaluate, NaT mask and scatter), `utils/validate.py`, `usecases.py`, `_base.py` (constructor and all
  methods and properties that compute something), all of `libspa/*` (seven modules, three paths each, all tables),
  `utils/datetime.py` up to the line at which it always fails, `utils/jpl_horizons.py`, `_cli/main.py` (parsers, `at`),
  `_cli/position.py` (everything but the frame drawn by `tabulate`), `_cli/benchmark.py` (`calc_residues`, bulk scores, reference data, `sunwhere_ephemeris`, tables of the ephemeris errors and of the clear-sky errors, with SPARTA as a parameter; `speed_meter`; not `load_speed_tests`),
  `_cli/solar_chart.py` (which points each curve, label and marker shows; not matplotlib, colours and displacement of texts; the
  `include_*` flags have their defaults).
* Errors are values; order of checks is kept, so that statements about *which* exception are meaningful.
* numpy broadcasting (`Verif/Arr.lean`) and named dimensions of xarray (`Verif/DA.lean`) are modelled. In the main
  model the arrays have no coordinates (labels); `Verif/Labels.lean` has all methods once more with coordinates and alignment by label, and C79
  shows that both give the same values. Names and attributes are in `Verif/Meta.lean` (C82); encodings of DataArrays are not modelled.

### What is not modelled, or simplified

* Floating point. Structural theorems quantify over *every* arithmetic (`[Scalar F]`, no laws), hence hold for IEEE arithmetic. Numeric
  theorems (ranges, bounds, geometry) are about `XR`: exact reals with one NaN. There `f32` is the identity, `tan` at the poles has the value of the
  double `tan(radians(90))`, and infinities are NaN. They do not bound rounding errors; C55 does for psa, C60 for soltrack, C61 for iqbal and C62 for nrel: there the
  arithmetic is any `Arith` (a structure of operations with accuracy clauses, no axioms). `Verif/RoundIeee.lean` constructs two of them, exact arithmetic and
  arithmetic rounded to 53 bits half to even, so the clauses are consistent. That the machine's arithmetic and mathematical library meet them is an assumption
  about the platform (IEEE binary64 does with a margin: 1.1e-16 < 1e-15; numpy's and VML's functions claim errors below 4 ulp < 1e-14).
* `np.sum` in nrel: left-to-right order (over XR the order is irrelevant).
* External code, as parameters about which nothing is assumed unless the theorem says so: `World.localize` (pandas `tz_localize` of a
  named zone; `LocalizeSound` and `KeepsLength` are hypotheses where needed; `Verif/Localize.lean` models pandas' algorithm from its source, and C80_sound
  shows that it meets them), `World.natFloat` (float of a NaT), the CLI
  environment (system clock, `pd.to_datetime`, `tz_localize`), Python's `float` in C38 (any function; `pyFloat` is a model for ASCII
  decimal literals without rounding), `dateutil` and `float` in C40, the Horizons server and the file writes in C41, C45, C53.
* External code modelled from its documentation or source, not in /repo: numpy's datetime64 calendar (C36 proves it Gregorian), pandas'
  `date_range` length, `mean`, `std`, `quantile`, `DataFrame.drop/assign/tz_localize/concat`, `pd.to_datetime` of nested arrays, the ValueError of
  `NaT.strftime` (C50), `np.interp` with a period (C74), chained assignment with and without copy-on-write (C97).
* numba/numexpr threads, log output, progress output, drawing proper of the figures of `_cli/benchmark.py` (densities, axes, colours), drawing proper of `_cli/solar_chart.py`, package metadata,
  notebooks and documentation.

## Testing the theorems

`seeded/LOG.jsonl` records edits of the model in a scratch copy that imitate bugs, and what they break. `tools/manifest.py` regenerates
`MANIFEST.json` from the names of the theorems.
