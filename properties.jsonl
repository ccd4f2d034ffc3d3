{"id": "C01", "title": "Algorithm/engine dispatch is total", "statement": "For sites, regular_grid and transect, with inputs that are otherwise acceptable, the call succeeds exactly when (algorithm, engine) is one of (psa|soltrack|iqbal, numpy|numexpr) or (nrel, numexpr); every other pair of strings raises ValueError, and the object returned reports exactly the algorithm, engine and refraction argument it was called with.", "quantifier": "all algorithm strings, all engine strings, all otherwise valid arguments, the three use cases", "why_tests_cant": "the strings range over an infinite set and the guarantee is about every rejected pair", "anchors": ["src/sunwhere/_core.py::evaluate", "src/sunwhere/_core.py::__ALGORITHMS__", "src/sunwhere/usecases.py::sites", "src/sunwhere/usecases.py::regular_grid", "src/sunwhere/usecases.py::transect"]}
{"id": "C02", "title": "Latitude bounds are closed and NaN is let through", "statement": "Every accepted call has -90 <= latitude <= 90 for every non-NaN latitude, any call containing a non-NaN latitude outside the closed interval raises ValueError, and latitudes of exactly -90 and 90 are accepted.", "quantifier": "all latitude arrays of any length, all use cases", "why_tests_cant": "boundary behaviour must hold for every position in arrays of every length and for every out-of-range real", "anchors": ["src/sunwhere/utils/validate.py::check_timelatlon", "src/sunwhere/_core.py::evaluate"]}
{"id": "C03", "title": "Longitude bounds are half open", "statement": "Every accepted call has -180 <= longitude < 180 for every non-NaN longitude; longitude -180 is accepted, and any call containing longitude 180 (allowed by the docstrings, which say [-180, 180]) raises ValueError.", "quantifier": "all longitude arrays of any length, all use cases", "why_tests_cant": "same as C02; also documents that the docstring's closed interval is false for every input", "anchors": ["src/sunwhere/utils/validate.py::check_timelatlon", "src/sunwhere/usecases.py::sites"]}
{"id": "C04", "title": "Shape mismatches are ValueErrors", "statement": "sites rejects len(latitude) != len(longitude), transect rejects any inequality among the three lengths, and every use case rejects latitude or longitude with two or more dimensions, always with ValueError and before any computation.", "quantifier": "all argument lengths and ranks", "why_tests_cant": "lengths and ranks are unbounded", "anchors": ["src/sunwhere/usecases.py::sites", "src/sunwhere/usecases.py::transect", "src/sunwhere/utils/validate.py::check_dimensions"]}
{"id": "C05", "title": "Accepted calls have the documented shape", "statement": "Whenever a call returns, ecf, eot and declination have shape (K,), and zenith and azimuth have shape (K,J) for sites, (K,J,I) for regular_grid, (K,) for transect, with the dimension names (time, location), (time, latitude, longitude), (time); and with times that are naive or carry a pytz zone, no AssertionError or broadcasting error can come out of a call.", "quantifier": "all K, J, I including 0 and 1, all algorithms, engines and refraction settings", "why_tests_cant": "broadcasting errors show up only at particular combinations of sizes (for instance K == 1 or J == 1) which are unbounded", "anchors": ["src/sunwhere/_base.py::Sunpos.__init__", "src/sunwhere/_core.py::evaluate", "src/sunwhere/libspa/*::sunpos"]}
{"id": "C06", "title": "NaT times give NaN rows and leave the others alone", "statement": "If times[k] is NaT then every ecf, eot, declination, zenith and azimuth value of row k is NaN, and the values of every other row are exactly those of the call in which the NaT entries (with their own coordinates, in transect) have been removed.", "quantifier": "all placements of NaT in time arrays of any length", "why_tests_cant": "the mask/scatter logic has to be right for every one of the 2^K masks", "anchors": ["src/sunwhere/_core.py::evaluate"]}
{"id": "C07", "title": "Results are pointwise", "statement": "The zenith, azimuth, ecf, eot and declination of a cell depend only on the time, latitude and longitude of that cell (and on algorithm, engine, refraction): two calls that agree on them agree on the cell whatever the other cells contain and wherever the cell sits. In particular permuting, repeating, dropping or splitting the inputs permutes, repeats, drops or splits the outputs.", "quantifier": "all pairs of accepted calls of one use case, all cells", "why_tests_cant": "relates two runs on arbitrary inputs", "anchors": ["src/sunwhere/_core.py::evaluate", "src/sunwhere/libspa/*::_sunpos_one_dimensional", "src/sunwhere/libspa/*::_sunpos_two_dimensional", "src/sunwhere/libspa/*::_sunpos_three_dimensional"]}
{"id": "C08", "title": "The three use cases agree", "statement": "For the same time, latitude and longitude, sites, regular_grid and transect return the same zenith, azimuth, ecf, eot and declination: bit-for-bit (for every floating-point semantics) for psa, nrel and the numpy engines, and in exact arithmetic for numexpr soltrack and numexpr iqbal, whose 2-dim path evaluates tan or lon/15 differently.", "quantifier": "all accepted calls, all cells with equal coordinates", "why_tests_cant": "relates three separately written code paths on all inputs", "anchors": ["src/sunwhere/libspa/*::_sunpos_one_dimensional", "src/sunwhere/libspa/*::_sunpos_two_dimensional", "src/sunwhere/libspa/*::_sunpos_three_dimensional"]}
{"id": "C09", "title": "numpy and numexpr engines agree", "statement": "In exact arithmetic the two engines of soltrack and of iqbal return the same five variables for every input, despite numexpr's % being C fmod and numpy's being floored; for psa the engines agree on azimuth, ecf, eot and declination, and the cosine of the geometric zenith differs by at most 5e-7 (the numpy engine rounds it to six decimals), so the zenith is in general not the same.", "quantifier": "all times in the datetime64[ns] range (also before 2000 and before 1970), all locations", "why_tests_cant": "negative arguments of % and the rounding make the engines differ only on some inputs", "anchors": ["src/sunwhere/libspa/py_psa.py", "src/sunwhere/libspa/ne_psa.py", "src/sunwhere/libspa/py_soltrack.py", "src/sunwhere/libspa/ne_soltrack.py", "src/sunwhere/libspa/py_iqbal.py", "src/sunwhere/libspa/ne_iqbal.py"]}
{"id": "C10", "title": "Sub-second parts of the times are dropped", "statement": "Two calls whose times agree after truncation (floor) to whole seconds return the same zenith, azimuth, ecf, eot and declination.", "quantifier": "all time arrays, all use cases", "why_tests_cant": "relates pairs of runs over all sub-second offsets, including before 1970 where floor and truncation differ", "anchors": ["src/sunwhere/utils/validate.py::check_timelatlon", "src/sunwhere/usecases.py::sites"]}
{"id": "C11", "title": "Solar position does not depend on how the instants are expressed", "statement": "Two calls whose times denote the same UTC instants (naive UTC, aware in any time zone of any kind) and that both return, return the same zenith, azimuth, ecf, eot and declination.", "quantifier": "all time zones (arbitrary offset functions), all time arrays", "why_tests_cant": "offset functions are arbitrary", "anchors": ["src/sunwhere/utils/validate.py::check_timelatlon", "src/sunwhere/_core.py::evaluate", "src/sunwhere/usecases.py::sites"]}
{"id": "C12", "title": "times_utc is the instant asked for", "statement": "times_utc[k] is the UTC instant of times[k]: true for naive times and for pytz zones wherever the wall-clock time is unambiguous; for a tz object without a `zone` attribute (zoneinfo, datetime.timezone: the default of the pinned pandas) times_utc[k] is instead the wall-clock time, i.e. it is wrong by exactly the UTC offset, and for pytz.FixedOffset the call raises TypeError.", "quantifier": "all time zones and time arrays", "why_tests_cant": "quantifies over arbitrary zones and instants", "anchors": ["src/sunwhere/_base.py::Sunpos.__init__"]}
{"id": "C13", "title": "Zenith range", "statement": "zenith is in [0, 180] degrees for psa and nrel with and without refraction and for soltrack and iqbal without refraction; with refraction=True the documented range is false for soltrack and iqbal: inputs exist whose zenith is outside it.", "quantifier": "all instants of the datetime64[ns] range, all latitudes and longitudes, all use cases and both engines", "why_tests_cant": "the extremes are reached only on measure-zero sets of inputs", "anchors": ["src/sunwhere/_base.py::Sunpos.zenith", "src/sunwhere/libspa/*"]}
{"id": "C14", "title": "Azimuth range", "statement": "azimuth is in [-180, 180] degrees for every algorithm, with -180 <= azimuth < 180 for psa and iqbal and -180 < azimuth <= 180 for soltrack and nrel.", "quantifier": "all instants, latitudes, longitudes", "why_tests_cant": "the branch cut is a measure-zero set", "anchors": ["src/sunwhere/_base.py::Sunpos.azimuth", "src/sunwhere/libspa/*"]}
{"id": "C15", "title": "Zenith and azimuth describe the direction of one sun", "statement": "Without refraction, for psa, soltrack and iqbal there is for each instant an angle H0 such that for every location, with hour angle H = H0 + longitude, the (up, south, west) unit vector built from the returned declination, H and the latitude is reproduced by the returned zenith and azimuth: azimuth exactly, and zenith exactly for iqbal and up to the parallax (at most 4.3e-5 rad, never towards the zenith) for the others; azimuth is thus zero towards south and positive towards west (afternoon).", "quantifier": "all instants, latitudes, longitudes", "why_tests_cant": "geometric identity over a continuum of inputs, including quadrant errors", "anchors": ["src/sunwhere/libspa/*", "src/sunwhere/_base.py::Sunpos.azimuth"]}
{"id": "C16", "title": "Morning is east, afternoon is west", "statement": "The azimuth is strictly negative exactly when the sun is east of the meridian (sin of the hour angle negative) and strictly positive when it is west; the hour angle is H0(instant) + longitude, as in C15.", "quantifier": "all instants, latitudes, longitudes", "why_tests_cant": "sign errors on one side of a branch", "anchors": ["src/sunwhere/libspa/*"]}
{"id": "C17", "title": "Declination bounds", "statement": "The declination is within [-23.8, 23.8] degrees for psa, soltrack and nrel and within [-24.5, 24.5] degrees for iqbal, in particular its cosine never vanishes.", "quantifier": "all instants of the datetime64[ns] range", "why_tests_cant": "must hold for every instant", "anchors": ["src/sunwhere/libspa/*", "src/sunwhere/_base.py::Sunpos.declination"]}
{"id": "C18", "title": "Eccentricity factor bounds", "statement": "0.96 <= ecf <= 1.04 at every instant for every algorithm, hence the implied sun-earth distance is positive and finite.", "quantifier": "all instants of the datetime64[ns] range", "why_tests_cant": "must hold for every instant", "anchors": ["src/sunwhere/libspa/*", "src/sunwhere/_base.py::Sunpos.ecf"]}
{"id": "C19", "title": "Equation of time bounds", "statement": "|eot| <= 20 minutes at every instant for every algorithm, i.e. the modular reductions and the +-1440-minute repair never leave a wrapped value.", "quantifier": "all instants of the datetime64[ns] range", "why_tests_cant": "wrap-around failures occur at isolated instants", "anchors": ["src/sunwhere/libspa/*", "src/sunwhere/_base.py::Sunpos.eot"]}
{"id": "C20", "title": "Derived angles are consistent", "statement": "elevation = 90 - zenith, cosz = cos(zenith), sza/saa/dec are the same values as zenith/azimuth/declination, cosz is in [-1,1], and cosz > 0, = 0, < 0 exactly when elevation > 0, = 0, < 0 (for zenith in [0, 180]).", "quantifier": "all returned objects, all cells", "why_tests_cant": "must hold for every cell", "anchors": ["src/sunwhere/_base.py::Sunpos.elevation", "src/sunwhere/_base.py::Sunpos.cosz", "src/sunwhere/_base.py::Sunpos.sza", "src/sunwhere/_base.py::Sunpos.saa", "src/sunwhere/_base.py::Sunpos.dec"]}
{"id": "C21", "title": "Extraterrestrial irradiance is non-negative and zero at night", "statement": "With am_correction='none' and ISC >= 0, eth >= 0, eth = 0 exactly when cosz <= 0 (ISC > 0), and eth <= 1.04*ISC; it is linear in ISC.", "quantifier": "all objects, cells and solar constants", "why_tests_cant": "must hold for every cell", "anchors": ["src/sunwhere/_base.py::Sunpos.eth"]}
{"id": "C22", "title": "Airmass corrections of eth", "statement": "With a correction, wherever the zenith is between 0 and 180 degrees: by day (zenith <= 90) eth is the uncorrected value times a factor in (0, 1.19]; at night it is NaN for 'perez_1990' and 'gonzalez_and_calbo_1999' (and not zero as with 'none'), and zero for 'skarveith_1998'. Any other string raises ValueError. Where the zenith is negative (which happens at every instant somewhere, with iqbal and refraction) 'gonzalez_and_calbo_1999' gives NaN although the sun is overhead.", "quantifier": "all objects, cells and correction strings", "why_tests_cant": "must hold for every cell and string", "anchors": ["src/sunwhere/_base.py::Sunpos.eth"]}
{"id": "C23", "title": "Airmass is at least one and NaN exactly at night", "statement": "airmass() >= 1 wherever it is not NaN; for non-negative zenith angles it is NaN exactly where zenith > 90 degrees (or where the zenith is NaN), for every parameterization; an unknown parameterization raises ValueError. Where the zenith is negative (iqbal with refraction, sun overhead) the two gueymard formulas give NaN.", "quantifier": "all objects, cells and parameterization strings", "why_tests_cant": "must hold for every zenith in [0, 180]", "anchors": ["src/sunwhere/_base.py::Sunpos.airmass"]}
{"id": "C24", "title": "Airmass grows with the zenith angle", "statement": "For each of the four parameterizations the airmass is a non-decreasing function of the zenith angle over [0, 90] degrees.", "quantifier": "all pairs of cells of all objects", "why_tests_cant": "relates all pairs of zenith angles", "anchors": ["src/sunwhere/_base.py::Sunpos.airmass"]}
{"id": "C25", "title": "Sunrise angle geometry", "statement": "Strictly between the poles sunrise('deg'/'rad') is finite exactly when |tan(lat) tan(dec)| <= 1 (otherwise NaN), lies in [0,180] degrees, and at that hour angle the geometric elevation computed from the same latitude and declination is exactly zero; it is 90 degrees on the equator. At the poles it is NaN unless the declination vanishes to within 6.2e-17.", "quantifier": "all cells with finite latitude and declination", "why_tests_cant": "identity over a continuum", "anchors": ["src/sunwhere/_base.py::Sunpos.sunrise"]}
{"id": "C26", "title": "Daylight length laws", "statement": "daylight_length is in [0,24] hours or NaN, is 12 h on the equator, the daylight lengths at latitudes phi and -phi add up to 24 h, and it is non-decreasing in latitude when the declination is positive.", "quantifier": "all cells, all pairs of latitudes", "why_tests_cant": "relates pairs of outputs", "anchors": ["src/sunwhere/_base.py::Sunpos.daylight_length"]}
{"id": "C27", "title": "Sunset in degrees or radians always fails", "statement": "sunset() (default units 'deg') and sunset('rad') raise UnboundLocalError for every object; units outside {rad,deg,tst,utc,local} raise AssertionError (documented: ValueError) in both sunrise and sunset; 'tst', 'utc', 'local' succeed.", "quantifier": "all objects and all units strings", "why_tests_cant": "claims a failure for every input", "anchors": ["src/sunwhere/_base.py::Sunpos.sunset", "src/sunwhere/_base.py::Sunpos.sunrise"]}
{"id": "C28", "title": "Sunset minus sunrise is the daylight length", "statement": "In each of the units tst, utc and local, sunset - sunrise equals daylight_length() truncated to nanoseconds, with NaT exactly where daylight_length is NaN (at cells whose true solar time is not NaT); sunrise never follows sunset.", "quantifier": "all cells", "why_tests_cant": "must hold for every cell", "anchors": ["src/sunwhere/_base.py::Sunpos.sunset", "src/sunwhere/_base.py::Sunpos.daylight_length"]}
{"id": "C29", "title": "Sunrise and sunset are symmetric about true solar noon of the right day", "statement": "sunrise('tst') falls in the same true-solar-time day as true_solar_time, between midnight and noon, and sunrise('tst') and sunset('tst') are symmetric about 12:00 of that day up to 2 ns of truncation.", "quantifier": "all cells", "why_tests_cant": "floor-to-day around midnight and before 1970", "anchors": ["src/sunwhere/_base.py::Sunpos.sunrise", "src/sunwhere/_base.py::Sunpos.sunset"]}
{"id": "C30", "title": "True solar time definition", "statement": "true_solar_time = times_utc + eot + 4 min per degree of longitude, truncated to nanoseconds; it is NaT exactly where the time is NaT or the longitude is NaN; and it increases with longitude.", "quantifier": "all cells", "why_tests_cant": "must hold for every cell", "anchors": ["src/sunwhere/_base.py::Sunpos.true_solar_time"]}
{"id": "C31", "title": "sunrise utc/local are consistent conversions", "statement": "sunrise('utc') = sunrise('tst') - (eot + 4 lon) minutes (truncated), sunrise('local') - sunrise('utc') equals the wall-clock minus UTC difference of the object's own times; with a tz object lacking `zone` that difference is 0, so 'local' equals 'utc' whatever the offset.", "quantifier": "all cells, all zones", "why_tests_cant": "arbitrary zones", "anchors": ["src/sunwhere/_base.py::Sunpos.sunrise"]}
{"id": "C32", "title": "Incidence is the cosine of an angle between unit vectors", "statement": "incidence(slope, azimuth) is the scalar product of the unit surface normal and the unit sun vector built from latitude, declination and the true-solar-time hour angle; hence |incidence| <= 1, slope 0 gives sin(lat) sin(dec) + cos(lat) cos(dec) cos(ha) whatever the azimuth, and slope 180 is its negative.", "quantifier": "all cells, slopes and azimuths", "why_tests_cant": "identity over a continuum", "anchors": ["src/sunwhere/_base.py::Sunpos.incidence"]}
{"id": "C33", "title": "Dimension order of derived variables", "statement": "elevation, cosz, airmass and eth keep zenith's dimension order; sunrise/sunset in time units are (time, location), (time, latitude, longitude) or (time), sunrise in angular units lacks the longitudes of a grid; but incidence is (location, time) for sites and (latitude, time, longitude) for regular_grid, not the documented (K,J) / (K,J,I) order.", "quantifier": "all objects", "why_tests_cant": "the dimension order is a property of every object", "anchors": ["src/sunwhere/_base.py::Sunpos.incidence", "src/sunwhere/_base.py::Sunpos.eth", "src/sunwhere/_base.py::Sunpos.sunrise"]}
{"id": "C34", "title": "refraction must be literally True", "statement": "Refraction is applied exactly when the argument is the Python object True; any other value (False, 1, numpy.bool_(True), 'yes') gives the unrefracted result, while has_refraction reports the argument unchanged.", "quantifier": "all Python values of the argument, all calls", "why_tests_cant": "the argument ranges over all Python objects", "anchors": ["src/sunwhere/libspa/*", "src/sunwhere/_base.py::Sunpos.has_refraction"]}
{"id": "C35", "title": "Refraction never lowers the sun appreciably and preserves order", "statement": "For psa and for nrel the refracted elevation is one function of the unrefracted elevation: the identity below the threshold of about -0.83 degrees, and above it never lower by more than 1e-6 rad nor higher by more than 0.65 degrees; it preserves the order of elevations (at least 2.1e-19 rad apart), jumping upwards across the threshold; the azimuth is not changed.", "quantifier": "all geometric elevations in [-90, 90]", "why_tests_cant": "a continuum with a singular formula", "anchors": ["src/sunwhere/libspa/py_psa.py", "src/sunwhere/libspa/ne_psa.py", "src/sunwhere/libspa/ne_nrel.py"]}
{"id": "C36", "title": "Iqbal's calendar is the Gregorian calendar", "statement": "The year, month, day, hour, minute and second used by iqbal are the proleptic Gregorian civil date and time of the UTC instant, and the day of year is the number of days since 1 January plus one, leap years included.", "quantifier": "all instants (all integers of seconds)", "why_tests_cant": "calendar arithmetic fails at isolated dates (century years, before 1970)", "anchors": ["src/sunwhere/libspa/py_iqbal.py::day_angle", "src/sunwhere/libspa/ne_iqbal.py::day_angle"]}
{"id": "C37", "title": "universal_time_coordinated always fails", "statement": "The exported function universal_time_coordinated (and utils.datetime.true_solar_time) raises AttributeError for every argument that its first evaluation accepts, and the error of that evaluation otherwise: it never returns.", "quantifier": "all arguments", "why_tests_cant": "claims a failure for every input", "anchors": ["src/sunwhere/utils/datetime.py::universal_time_coordinated", "src/sunwhere/_core.py::evaluate"]}
{"id": "C38", "title": "CLI coordinate parsing", "statement": "parse_latitude/parse_longitude return plus or minus the number before the hemisphere letter (N/E positive, S/W negative, either case, and the long s, whose capital is S), a returned value is always in [-90,90] resp. [-180,180), every other input fails (empty: IndexError; no hemisphere letter or out of range: AssertionError; malformed number: ValueError), every returned pair is accepted by sites' bounds checks, and plain decimals mean what they say.", "quantifier": "all strings", "why_tests_cant": "strings are unbounded", "anchors": ["src/sunwhere/_cli/main.py::parse_latitude", "src/sunwhere/_cli/main.py::parse_longitude"]}
{"id": "C39", "title": "CLI equation-of-time display loses the sign below one minute", "statement": "The displayed minutes:seconds pair determines eot up to display precision if |eot| >= 1 min or eot >= 0, but for every eot in (-1, 0) minutes the display is that of -eot.", "quantifier": "all eot values", "why_tests_cant": "a continuum of values", "anchors": ["src/sunwhere/_cli/position.py::calculate_position"]}
{"id": "C40", "title": "JPL Horizons file parsing", "statement": "read_jpl_ephemeris_file returns one row per line between the first $$SOE line and the next $$EOE line, in order, with azimuth = az - 180, zenith = 90 - el and ecf = 1/R^2, whatever precedes and follows; it raises ValueError if either marker is missing, IndexError if there is no line between them, and otherwise fails only with the error of a data line that does not parse. Whole seconds before 2116 survive the passage through float64.", "quantifier": "all files (arbitrary line lists)", "why_tests_cant": "files are unbounded", "anchors": ["src/sunwhere/utils/jpl_horizons.py::read_jpl_ephemeris_file"]}
{"id": "C41", "title": "load_jpl_ephemeris cannot build its cache", "statement": "Whenever the yearly cache file does not exist, load_jpl_ephemeris raises (at the latest a KeyError on the first month, because the column it drops has already been dropped): after any history of calls, crashes of the writer and interference with the text files it has not created the cache. At most one request is made per call, for January; once there is a January file, even a truncated one, it is never asked again and the same error comes back for ever. With a cache, nothing is requested or written, and the call raises TypeError if the cached index is aware, as that of all data read from JPL files is.", "quantifier": "all years, sites, file systems and responses", "why_tests_cant": "claims a failure for every environment", "anchors": ["src/sunwhere/utils/jpl_horizons.py::load_jpl_ephemeris"]}
{"id": "C42", "title": "Benchmark azimuth residuals", "statement": "After calc_residues' wrap-around the absolute azimuth residual of two azimuths in [-180,180] is the distance on the circle whenever that distance is below 30 degrees; but the sign of a wrapped residual is inverted, and differences between 180 and 330 degrees are not wrapped at all, so that the residual exceeds any distance on the circle. calc_residues raises KeyError without the reference method, and otherwise returns the columns of all other methods in their order, row by row against the reference; other variables are never wrapped.", "quantifier": "all pairs of azimuths", "why_tests_cant": "a continuum of pairs", "anchors": ["src/sunwhere/_cli/benchmark.py::calc_residues"]}
{"id": "C43", "title": "NaN coordinates stay local", "statement": "A NaN latitude or longitude makes zenith and azimuth NaN in its own cells only; ecf, eot, declination and all other cells are unaffected.", "quantifier": "all placements of NaN coordinates", "why_tests_cant": "all masks", "anchors": ["src/sunwhere/utils/validate.py::check_timelatlon", "src/sunwhere/libspa/*"]}
{"id": "C44", "title": "Coordinates are quantised to binary32 by all algorithms but nrel", "statement": "For psa, soltrack and iqbal, two calls whose latitudes and longitudes round to the same binary32 numbers return identical zenith and azimuth; nrel uses the binary64 values.", "quantifier": "all pairs of coordinates, every floating-point semantics", "why_tests_cant": "relates pairs of runs", "anchors": ["src/sunwhere/libspa/py_psa.py::sunpos", "src/sunwhere/libspa/ne_nrel.py::sunpos"]}
{"id": "C45", "title": "Oversized Horizons requests are rejected", "statement": "get_jpl_ephemeris makes exactly one request if the number of time steps from start to stop (both truncated to the minute) at the step rounded to whole minutes is at most 90024, and otherwise raises ValueError without any request or file being written; a step that rounds to zero is a ZeroDivisionError. At most the given file changes. The monthly windows of load_jpl_ephemeris go from the first to the last minute of the month, follow each other without gap or overlap and are never rejected.", "quantifier": "all start/stop/step", "why_tests_cant": "integers are unbounded", "anchors": ["src/sunwhere/utils/jpl_horizons.py::get_jpl_ephemeris"]}
{"id": "C46", "title": "nrel returns the topocentric direction of the sun", "statement": "Without refraction, for nrel there is for each instant an hour angle H0 such that for every location the returned zenith and azimuth are the direction of the vector from an observer on the surface of an ellipsoidal earth (axis ratio 0.99664719, radius at most 4.4e-5 of the sun's distance) to a sun whose geocentric declination is the returned one and whose hour angle is H0 + longitude.", "quantifier": "all instants representable in nanoseconds, all latitudes and longitudes", "why_tests_cant": "a continuum of instants and places; tests compare a few points with tables", "anchors": ["src/sunwhere/libspa/ne_nrel.py"]}
{"id": "C47", "title": "True solar time and the returned position agree", "statement": "Without refraction, where times_utc is the instant of the call, the returned azimuth, declination and (up to parallax) zenith are those of a sun whose hour angle is the one true_solar_time stands for (15 degrees per hour, zero at noon), to within 4.4e-4 rad for psa, 1.2e-4 rad for soltrack and nrel and 7.3e-5 rad for iqbal: equation of time, longitude and hour angle are consistent with each other at every instant.", "quantifier": "all instants representable in nanoseconds, all locations, all algorithms and engines", "why_tests_cant": "a continuum of instants; wrap-arounds of the equation of time occur at isolated instants", "anchors": ["src/sunwhere/_base.py::Sunpos.true_solar_time", "src/sunwhere/libspa/*"]}
{"id": "C48", "title": "Incidence agrees with the returned zenith and azimuth", "statement": "Without refraction, where times_utc is the instant of the call, incidence(slope, azimuth) equals cos(zenith) cos(slope) + sin(zenith) sin(slope) cos(returned azimuth + surface azimuth) to within 2.1e-3 (psa numpy), 4.9e-4 (psa numexpr), 2.1e-4 (nrel), 1.7e-4 (soltrack) or 7.3e-5 (iqbal); in particular incidence(0, .) is cosz to that precision. The surface azimuth counts positive towards east while the returned azimuth counts positive towards west.", "quantifier": "all instants, locations, slopes and surface azimuths", "why_tests_cant": "a continuum of inputs; the sign conventions differ between the two", "anchors": ["src/sunwhere/_base.py::Sunpos.incidence", "src/sunwhere/_base.py::Sunpos.azimuth"]}
{"id": "C49", "title": "The command line rejects times that carry a zone", "statement": "`sunwhere at TIME ...` with a TIME that pandas parses to a time-zone aware stamp ends with exit code 1 for every location, algorithm and requested time zone (the first half of the program strips the zone, the second half localises the stamp again, which pandas refuses for aware stamps).", "quantifier": "all time strings with an offset or zone, all other arguments, all environments", "why_tests_cant": "ranges over all time strings, places, algorithms and zones; nobody tests the error path", "anchors": ["src/sunwhere/_cli/position.py::calculate_position", "src/sunwhere/_cli/main.py::at"]}
{"id": "C50", "title": "The command line reports nothing in polar day and night", "statement": "Wherever the sunrise angle of the computed position is NaN (polar day or night, poles) the command ends with exit code 1 and prints no table, although zenith and azimuth exist; between the latitudes -65 and 65 degrees that never happens.", "quantifier": "all instants, locations and algorithms", "why_tests_cant": "continuum of instants and latitudes", "anchors": ["src/sunwhere/_cli/position.py::calculate_position", "src/sunwhere/_base.py::Sunpos.sunrise"]}
{"id": "C51", "title": "What the command line prints", "statement": "A successful `sunwhere at` prints the position that `sites` computes for the instant whose wall-clock reading in the requested zone is TIME; the printed elevation is 90 minus the printed zenith; the printed distance d is positive and makes the eccentricity correction factor 1/d^2; `now` is the reading of the system's local clock taken in the requested zone, so that on a system whose clock is not in that zone it is another instant than now. For naive times in the range of datetime64[ns], latitudes between -65 and 65 and time zone objects without attribute zone the command succeeds.", "quantifier": "all arguments and environments for which the command succeeds", "why_tests_cant": "ranges over clocks, zones and a continuum of positions", "anchors": ["src/sunwhere/_cli/position.py::calculate_position"]}
{"id": "C52", "title": "Benchmark scores are consistent", "statement": "For every column of residues with at least one number, the scores reported by the benchmark satisfy |mbe| <= mae <= rmse and, with two or more numbers, rmse^2 = mbe^2 + std^2 (n-1)/n; 0 <= CI66 <= CI90 <= the largest absolute deviation from the mean; the scores depend neither on the order of the rows nor on rows that are NaN. Because of the inverted sign of wrapped azimuth residues (C42) the azimuth mbe can have the wrong sign.", "quantifier": "all lists of residues", "why_tests_cant": "inequalities over unbounded lists of reals", "anchors": ["src/sunwhere/_cli/benchmark.py::get_bulk_ephemeris_errors", "src/sunwhere/_cli/benchmark.py::calc_residues"]}
{"id": "C53", "title": "Benchmark reference data", "statement": "run_benchmark raises ZeroDivisionError on the equator and on the Greenwich meridian before it requests or writes anything. Elsewhere it makes at most one request, of a whole year, which is never over the service's limit, and none if there is already a file for the year and for the coordinates rounded to four decimals, whatever the file contains; sites that share a file are at most 0.0001 degrees apart and get the same reference.", "quantifier": "all years, sites, file systems and server answers", "why_tests_cant": "ranges over histories of the file system and over all coordinates", "anchors": ["src/sunwhere/_cli/benchmark.py::run_benchmark", "src/sunwhere/utils/jpl_horizons.py::get_jpl_ephemeris"]}
{"id": "C54", "title": "Accuracy against an independent ephemeris", "statement": "At every instant of datetime64[ns] (years 1677 to 2262) the values returned by psa, soltrack, nrel and iqbal agree with the sun of a textbook Keplerian ephemeris that shares nothing with the code: the declination to within 0.032, 0.007, 0.019 and 1.06 degrees, the equation of time (modulo whole turns) to within 11, 0.9, 7.1 and 129 seconds, the eccentricity correction factor with the inverse square of the distance to within 8.6e-6, 8.6e-6, 4.2e-4 and 0.0046, and, without refraction and at every place, the direction given by zenith and azimuth to within 0.107 (psa, numexpr), 0.199 (psa, numpy), 0.022 (soltrack), 0.063 (nrel) and 1.605 (iqbal) degrees of arc.", "quantifier": "all instants in the range of datetime64[ns], all latitudes and longitudes, all use cases and engines", "why_tests_cant": "a continuum of instants and places over six centuries; a coefficient wrong in a late digit only shows far from the sampled dates", "anchors": ["src/sunwhere/libspa/ne_psa.py", "src/sunwhere/libspa/ne_soltrack.py", "src/sunwhere/libspa/ne_nrel.py", "src/sunwhere/libspa/py_psa.py", "src/sunwhere/libspa/py_soltrack.py", "src/sunwhere/libspa/ne_iqbal.py", "src/sunwhere/libspa/py_iqbal.py"]}
{"id": "C55", "title": "Rounding errors of psa", "statement": "In floating-point arithmetic (any arithmetic whose operations are accurate to 1e-15 relative, whose library functions are accurate to 1e-14, and in which the coordinates have single precision, as IEEE binary64 does) the psa algorithm returns, at every instant of datetime64[ns], numbers for declination, eccentricity correction factor and equation of time within 1e-8 degrees, 1e-10 and 1.1e-7 minutes of the exact values of its formulas; zenith and azimuth (modulo whole turns) are numbers within 0.0006/sin z and 0.0003/sin z degrees of the exact ones, unless the sun is within 0.17 degrees of the zenith or nadir, or, with refraction, within 0.00064 degrees of the elevation at which refraction sets in. The numpy engine returns numbers everywhere, also at the zenith. Consequently the use cases and the engines agree to twice these tolerances.", "quantifier": "all arithmetics meeting the accuracy specification, all instants in the range of datetime64[ns], all latitudes and longitudes, all use cases and engines", "why_tests_cant": "rounding errors depend on the input in the last bit and on the platform's mathematical library; the worst case over all instants and places is not found by sampling", "anchors": ["src/sunwhere/libspa/py_psa.py", "src/sunwhere/libspa/ne_psa.py"]}
{"id": "C56", "title": "Solar chart: for which arguments a chart is drawn", "statement": "A solar chart object can be made exactly for latitudes strictly between -90 and 90 and longitudes in [-180, 180); every other place, 180 degrees east and the poles included, and NaN, raises AssertionError. Without a date and time, with a time-zone aware one or with NaT, the chart is never drawn (the documented default fails with ValueError after the whole grid has been drawn). With a naive date and time the chart in UTC is drawn for every admissible place, in both projections.", "quantifier": "all latitudes, longitudes, dates, zones and projections", "why_tests_cant": "a continuum of places and all instants; the failing combinations are at boundaries and in defaults that a test of typical charts does not touch", "anchors": ["src/sunwhere/_cli/solar_chart.py", "SolarChart.__init__", "SolarPosition.__init__", "make_solar_chart"]}
{"id": "C57", "title": "Solar chart: which instants the curves show", "statement": "The two solstice curves show the sun every two minutes of the local 21 June and 21 December of the year of the chart; the path of the user shows it every five minutes of the local day given and the marker at the time given. Each hourly analemma shows the sun at that hour of UTC (not of local time) on every day of the year, while its label is placed where the sun is at that hour of local time on 21 June: the label is on its curve exactly if the UTC offset at that instant is zero. Every requested hour has exactly its analemma. Without a time zone, or with an empty one, the chart is that of UTC; otherwise it depends on the zone named and no other.", "quantifier": "all places, dates, time zones with sound offsets, all lists of hours and minutes, every arithmetic", "why_tests_cant": "quantifies over all zones, years and instants; a chart is only checked by eye", "anchors": ["src/sunwhere/_cli/solar_chart.py", "draw_solar_grid", "draw_solar_path"]}
{"id": "C58", "title": "Solar chart: labels of the days", "statement": "The curve labelled day/month is the curve of that day exactly if the day is greater than 12 or equals the month (otherwise day and month are exchanged); in the default chart all labels are right.", "quantifier": "all lists of days and months, all years and zones", "why_tests_cant": "depends on all combinations of day and month", "anchors": ["src/sunwhere/_cli/solar_chart.py", "draw_solar_grid"]}
{"id": "C59", "title": "Solar chart: east and west", "statement": "The chart names the side of the sky at which the azimuths of the library are positive: in both projections the direction it labels east is the western one of the returned azimuth and vice versa: a sun west of the meridian is drawn on the side named E or East, one east of it on the side named W or West.", "quantifier": "all azimuths, both projections", "why_tests_cant": "a sign convention that must hold for all azimuths and is not observable in numbers", "anchors": ["src/sunwhere/_cli/solar_chart.py", "SolarChart.__init__", "_base.py azimuth"]}
{"id": "C60", "title": "Rounding errors of soltrack", "statement": "In floating-point arithmetic (as in C55) the soltrack algorithm returns, at every instant of datetime64[ns], numbers for declination, eccentricity correction factor and equation of time within 3e-9 degrees, 1e-11 and 1.1e-7 minutes of the exact values of its formulas. Zenith and azimuth (modulo whole turns) are numbers within 0.00066/(k sin z) and 0.00038/(k sin z) degrees of the exact ones, where k is 1 in the numexpr engine and the cosine of the latitude in the numpy engine (which obtains it from the sine in single precision and so loses accuracy towards the poles), unless k sin z < 0.003 or, with refraction, z > 90.5 degrees (the refraction formula has a pole below the horizon, C13). Consequently the use cases and the engines agree to the sum of these tolerances.", "quantifier": "all arithmetics meeting the accuracy specification, all instants in the range of datetime64[ns], all latitudes and longitudes, all use cases and engines", "why_tests_cant": "rounding errors depend on the input in the last bit and on the platform's mathematical library; the worst case over all instants and places is not found by sampling", "anchors": ["src/sunwhere/libspa/py_soltrack.py", "src/sunwhere/libspa/ne_soltrack.py"]}
{"id": "C61", "title": "Rounding errors of iqbal", "statement": "In floating-point arithmetic (as in C55) the iqbal algorithm returns, at every instant of datetime64[ns], numbers for declination, eccentricity correction factor and equation of time within 1e-10 degrees, 1e-13 and 1e-10 minutes of the exact values of its formulas. If the exact zenith angle z without refraction has sin z >= 0.003, zenith and azimuth (modulo whole turns) are numbers within 0.00093/sin z (0.00048/sin z without refraction) and 0.00032/sin z degrees of the exact ones, at every latitude including the poles and above and below the horizon. Consequently the use cases and the engines agree to twice these tolerances.", "quantifier": "all arithmetics meeting the accuracy specification, all instants in the range of datetime64[ns], all latitudes and longitudes, all use cases and engines", "why_tests_cant": "rounding errors depend on the input in the last bit and on the platform's mathematical library; the worst case over all instants and places is not found by sampling", "anchors": ["src/sunwhere/libspa/py_iqbal.py", "src/sunwhere/libspa/ne_iqbal.py"]}
{"id": "C62", "title": "Rounding errors of nrel", "statement": "In floating-point arithmetic (as in C55) the nrel algorithm returns, at every instant of datetime64[ns], numbers for declination, eccentricity correction factor and equation of time within 4e-8 degrees, 2e-10 and 1.1e-6 minutes of the exact values of its formulas, whatever the use case and the site. If the exact zenith angle z without refraction has sin z >= 0.0005 and, with refraction, z is not within 0.000012 degrees of the angle at which the correction sets in, zenith and azimuth (modulo whole turns) are numbers within 1.02e-5/sin z and 6.2e-6/sin z degrees of the exact ones, at every latitude (within 1e-10 degrees of the poles: if the computed tangent of the latitude has the right sign, as in IEEE double precision). Consequently the use cases agree to twice these tolerances, on any platforms.", "quantifier": "all arithmetics meeting the accuracy specification, all instants in the range of datetime64[ns], all latitudes and longitudes, all use cases", "why_tests_cant": "rounding errors depend on the input in the last bit and on the platform's mathematical library; the worst case over all instants is not found by sampling", "anchors": ["src/sunwhere/libspa/ne_nrel.py"]}
{"id": "C63", "title": "The algorithms agree", "statement": "Two successful calls without refraction, of any use cases, algorithms and engines, that have a cell at the same instant and the same place, return directions of the sun whose angle is at most the sum of the errors of C54 (0.022 degrees for soltrack, 0.063 for nrel, 0.107 for psa with numexpr, 0.199 for psa with numpy, 1.605 for iqbal), declinations, eccentricity correction factors and equations of time (modulo whole days) that differ by at most the sums of theirs. Changing the algorithm is therefore a change of accuracy and never of meaning: sign conventions, units and time scale are the same.", "quantifier": "all pairs of calls, all instants in the range of datetime64[ns], all places", "why_tests_cant": "the largest discrepancy over 584 years and the whole globe is not found by sampling, and a sign convention may differ only in a corner", "anchors": ["src/sunwhere/usecases.py", "src/sunwhere/core/_base.py", "src/sunwhere/libspa/*"]}
{"id": "C64", "title": "Accuracy of the floating-point results", "statement": "In floating-point arithmetic (as in C55) every algorithm returns, at every instant of datetime64[ns], numbers for declination, eccentricity correction factor and equation of time that agree with the reference ephemeris of C54 to within the errors of C54 plus 4e-8 degrees, 2e-10 and 1.1e-6 minutes. Without refraction the returned zenith and azimuth are numbers, and the direction they describe makes an angle of at most the error of C54 plus 0.0021/(k sin z) degrees with that of the reference sun, z being the zenith angle of the latter, wherever k sin z >= 0.06 (k is 1, or the cosine of the latitude for soltrack with numpy; nrel not within 1e-10 degrees of the poles). Hence calls with different algorithms, engines, use cases and platforms agree to the sum of these errors.", "quantifier": "all arithmetics meeting the accuracy specification, all instants in the range of datetime64[ns], all latitudes and longitudes, all use cases, algorithms and engines", "why_tests_cant": "the error of the formulas and the rounding errors both depend on the input; neither worst case is found by sampling", "anchors": ["src/sunwhere/usecases.py", "src/sunwhere/libspa/*"]}
{"id": "C65", "title": "Day is between sunrise and sunset", "statement": "Take sunrise('utc') = r and sunset('utc') = q of one call at the cell of an instant t and a place strictly between the poles. The zenith angle that any call (same or another algorithm, engine, use case; without refraction) returns for that place at an instant u is at most 90 degrees plus an error E if r <= u <= q, and at least 90 degrees minus E if u is before r or after q and within 12 hours of the middle of r and q; in particular it is 90 degrees up to E at sunrise and at sunset. If sunrise is NaT, then at every instant within a day of t the zenith angle is at most 90 + E if latitude and declination have the same sign and at least 90 - E if they have opposite signs. E is 0.6 degrees per day between u and t, plus the errors of C54 (declination, equation of time and position), plus 0.02 degrees.", "quantifier": "all pairs of calls, algorithms, engines and use cases, all instants t and u in the range of datetime64[ns], all places", "why_tests_cant": "sunrise and sunset come from the state of one instant of the day, the positions from another; the worst case over years, places and times of day is not found by sampling", "anchors": ["src/sunwhere/_base.py: Sunpos.sunrise, Sunpos.sunset, Sunpos.true_solar_time, Sunpos.zenith", "src/sunwhere/libspa/*"]}
{"id": "C66", "title": "Rounding errors of the methods", "statement": "In floating-point arithmetic (as in C55) the methods of the result compute what their documentation says to within rounding. Elevation is 90 minus the zenith angle to 1e-12 degrees and cosz the cosine of the zenith angle to 2e-13. The uncorrected irradiance is isc times the eccentricity factor times max(0, cosz) to 5e-9 W/m2. True solar time is the UTC instant plus equation of time plus 4 minutes per degree of longitude to 20 microseconds. The sunrise angle is either a number between 0 and pi to 1e-14 at which the sun of the stored declination is on the horizon (residual 2e-13), or NaN, and then the day's circle does not cross the horizon by more than 2e-13; daylight length is the sunrise angle times 24/pi to 2e-13 hours. Sunrise and sunset in true solar time and UTC are numbers whenever the angle is, symmetric about the solar noon of the day of the true solar time to 3 ns each, and NaT whenever the angle is NaN. The incidence cosine is the dot product of the surface normal and the direction of the sun to 1e-12. The airmass of every parameterization differs from its exact value at the same zenith angle v by at most 4.1e-12 v^2 and 6e-8 by day, and is NaN below the horizon; the airmass-corrected irradiance differs from its exact value by at most 2e-3 W/m2 for solar constants up to 2000.", "quantifier": "all arithmetics meeting the accuracy specification, all results and cells with zenith angle, declination, equation of time and coordinates within stated bounds, all parameterizations and corrections", "why_tests_cant": "the worst accumulation of rounding errors over all inputs is not found by sampling; the casts to int64 nanoseconds and the ill-conditioned arccos and powers near the horizon have rare extremes", "anchors": ["src/sunwhere/_base.py: Sunpos.elevation, cosz, eth, true_solar_time, sunrise, sunset, daylight_length, incidence, airmass"]}
{"id": "C67", "title": "Day is between sunrise and sunset, in floating point", "statement": "C65 with every number rounded: take sunrise('utc') = r and sunset('utc') = q returned by one call in floating-point arithmetic at the cell of an instant t. The zenith angle that any other call (another algorithm, engine, use case or platform; without refraction) returns for that place at an instant u is at most 90 degrees plus E if r <= u <= q, and at least 90 degrees minus E if u is before r or after q and within 12 hours of the middle of r and q. If sunrise is NaT, then at every instant within a day of t it is at most 90 + E if latitude and declination have the same sign, and at least 90 - E if opposite. E is the error of C65 plus 0.0014/(k sin z) degrees, z being the zenith angle of the reference sun at u and k sin z >= 0.06 as in C64.", "quantifier": "all arithmetics meeting the accuracy specification, all pairs of calls, algorithms, engines and use cases, all instants t and u in the range of datetime64[ns], all places", "why_tests_cant": "a rounding error at the edge of polar day or in the casts to nanoseconds shows up only at rare inputs; sunrise and position come from different calls", "anchors": ["src/sunwhere/_base.py: Sunpos.sunrise, Sunpos.sunset, Sunpos.true_solar_time, Sunpos.zenith", "src/sunwhere/libspa/*"]}
{"id": "C68", "title": "Accuracy with refraction (the default)", "statement": "With refraction=True (the default of sites, regular_grid and transect), where the sun of the reference ephemeris is above the horizon (at least 2 degrees above it for iqbal) the zenith angle returned is the apparent zenith angle of that sun through a standard atmosphere (Saemundsson's formula) to within the position error of C54 plus 0.0001 degrees (psa), 0.0003 (soltrack), 0.003 (nrel) and 0.06 (iqbal); the refraction itself, taken from the position without refraction, is within that second bound of the standard atmosphere's. Hence two calls with refraction of any algorithms and engines agree to the sum of their bounds. The azimuth is the same with and without refraction, for every algorithm.", "quantifier": "all algorithms, engines and use cases, all instants in the range of datetime64[ns], all places where the sun is up", "why_tests_cant": "the bounds hold at every elevation of the sun, place and instant; a wrong constant of a refraction formula shows up only near the horizon", "anchors": ["src/sunwhere/libspa/py_psa.py, ne_psa.py", "src/sunwhere/libspa/py_soltrack.py, ne_soltrack.py", "src/sunwhere/libspa/py_iqbal.py, ne_iqbal.py", "src/sunwhere/libspa/ne_nrel.py"]}
{"id": "C69", "title": "Accuracy of the default call in floating point", "statement": "C68 with every number rounded: in floating-point arithmetic (as in C55), with refraction=True, where the sun of the reference ephemeris is above the horizon (at least 2 degrees above it for iqbal) and k sin z >= 0.06 as in C64 (z its true zenith angle), the zenith and azimuth angles are numbers; the zenith angle returned is the apparent zenith angle of that sun through the standard atmosphere to within the error of C68 plus 0.0019/(k sin z) degrees; for some true zenith angle from which it differs by the standard refraction to within the refraction error plus 0.0019/(k sin z), the direction of the returned azimuth makes an angle of at most the error of C54 plus 0.00077/(k sin z) degrees with that of the sun. Two calls with refraction in two such arithmetics agree in zenith angle to the sum of their bounds.", "quantifier": "all arithmetics meeting the accuracy specification, all algorithms, engines and use cases, all instants in the range of datetime64[ns], all places where the sun is up (nrel: latitude at least 1e-10 degrees from the poles)", "why_tests_cant": "this is what users get by default; the worst rounding over all instants, places and platforms is not found by sampling", "anchors": ["src/sunwhere/usecases.py: sites, regular_grid, transect", "src/sunwhere/_base.py: Sunpos.zenith, Sunpos.azimuth", "src/sunwhere/libspa/*"]}
{"id": "C70", "title": "The results change smoothly with time and place", "statement": "Two calls without refraction, of any use cases, algorithms and engines, at two instants D days apart and at two places whose latitudes differ by a degrees and whose longitudes differ by b degrees (up to whole turns: across the date line is no jump): the angle between the two directions returned, each in its own horizon, and the difference of the zenith angles, are at most a + b + 360.6 D degrees plus the two errors of C54, across midnight, New Year, leap days and the epoch alike. The declinations differ by at most 0.453 degrees per day, the equations of time by 0.57 minutes per day (up to whole days) and the eccentricity correction factors by 0.00062 per day, plus the errors of C54. With refraction (the default) the apparent zenith angles of a sun above the horizon differ by at most as much, plus 0.0001 degrees and the refraction errors of C68. The same in floating point, plus the rounding errors of C64 and C69.", "quantifier": "all pairs of calls, algorithms, engines, use cases, instants in the range of datetime64[ns] and places (floating point: where k sin z >= 0.06, as C64 and C69)", "why_tests_cant": "a jump of the output (at a wrap of an angle, the end of a day, month or year, the date line, a change of branch) happens at isolated instants and places that sampling misses", "anchors": ["src/sunwhere/usecases.py: sites, regular_grid, transect", "src/sunwhere/_base.py: Sunpos", "src/sunwhere/libspa/*"]}
{"id": "C71", "title": "The derived quantities are accurate", "statement": "Against the reference ephemeris of C54: (a) true_solar_time() is the instant plus the reference equation of time plus 4 minutes per degree of longitude, up to whole days, to the error of C54 (psa 0.182 min, soltrack 0.0147, nrel 0.117, iqbal 2.15), and 15 degrees for each hour that it is after noon is the hour angle of the reference sun (sidereal time - right ascension + longitude) to the same error plus 2.7e-5 rad; (b) incidence() on a surface of any slope and azimuth (from south, east positive) is the cosine between its normal and the direction of the reference sun to the sum of the errors of declination and hour angle; (c) eth() without correction is isc / R^2 max(0, cos z) of the reference sun to isc (1.05 p + f), p and f the errors of C54 in position (radians) and eccentricity correction factor; with refraction=True, where the reference sun is above the horizon (2 degrees for iqbal), z is its apparent zenith angle through the standard atmosphere and p includes the refraction error of C68. All this also in floating point, with the rounding errors of C64, C66 and C69.", "quantifier": "all algorithms, engines, use cases, all instants in the range of datetime64[ns], all places, slopes, azimuths and solar constants (floating point: |isc| <= 10000, slopes and azimuths up to 360 degrees; for eth as in C64 and C69)", "why_tests_cant": "the bounds hold at every instant, place and surface and for every rounding; a sample of them is no bound", "anchors": ["src/sunwhere/_base.py: Sunpos.true_solar_time, Sunpos.incidence, Sunpos.eth", "src/sunwhere/libspa/*"]}
{"id": "C72", "title": "What the command line prints can be read back", "statement": "The table printed by `sunwhere at`: (a) a number printed with four decimals is read by Python's float as a decimal with four digits within 0.00005 of the number; a clock time is the last whole second not after the event; minutes and seconds of the equation of time tell it to 0.05 s unless it is between -1 and 0 minutes, where the text is that of its opposite; (b) for every time zone other than UTC there are twelve rows from the latitude on, in the order of the source; for UTC (the default) the two local rows take the place of the two UTC rows, which have the same names, and this changes nothing if the zone's offset is zero; (c) if the command succeeds, the latitude, longitude, declination and sun-earth distance read off the table are those given and those of the reference ephemeris of C54 at the instant understood, to within the errors of C54 (0.54 times that of the eccentricity factor for the distance) and 0.00005; zenith and azimuth describe the direction of the reference sun to within the error of C54 and 0.0001 degrees, and the elevation is 90 degrees minus the zenith to 0.0001; with refraction the zenith is the apparent one to within the errors of C54 and C68 and 0.00005; (d) declination, equation of time, zenith and azimuth also in floating point, with the errors of C64 and C69; and in floating point the command succeeds between 60 degrees south and north if the zone object has no attribute zone.", "quantifier": "all times, places, algorithms, time zones and environments (clock, pandas' parser and localisation) for which the command succeeds; all numbers and clock readings; all arithmetics of the accuracy of double precision", "why_tests_cant": "rounding to decimals, sign handling and colliding row names concern every number and zone; a sample of printed tables does not bound the error of what is read off", "anchors": ["src/sunwhere/_cli/position.py: calculate_position", "src/sunwhere/_cli/main.py: at"]}
{"id": "C73", "title": "Day and night in the default call", "statement": "With refraction, the default: wherever the sun of the reference ephemeris of C54 is above the horizon by more than the error of the algorithm (C54), the returned zenith angle is below 90 degrees, elevation and cosine are positive, the extraterrestrial irradiance is positive, and every airmass is a number not below 1 (the latter unless the sun is within 2.5 degrees of the zenith). Wherever it is below the horizon by more than the refraction at the horizon (0.58 degrees; 0.78 for iqbal) plus the error of the algorithm, the zenith angle is above 90 degrees, elevation and cosine are negative, the extraterrestrial irradiance is zero and every airmass is NaN, except that for soltrack, whose refraction formula has a pole, the sun must not be within 0.1 degrees of 5.11 degrees below the horizon. In floating point the same holds with margins larger by 0.003 degrees over kappa times the sine of the zenith angle (as in C64).", "quantifier": "all instants with a 64-bit nanosecond count, all places, use cases, algorithms and engines; all arithmetics of the accuracy of double precision", "why_tests_cant": "the sign of the elevation near the horizon depends on the algorithm's error and on a refraction formula with a pole and a cut-off; no sample of sunrises covers every place and instant", "anchors": ["src/sunwhere/usecases.py: sites, regular_grid, transect", "src/sunwhere/_base.py: Sunpos.zenith, Sunpos.elevation, Sunpos.cosz, Sunpos.eth, Sunpos.airmass", "src/sunwhere/libspa: refraction of each algorithm"]}
{"id": "C74", "title": "Solar chart: day labels, filled area and ticks", "statement": "The label of each day of the solar chart is written at azimuth 0 (south) on the curve of that day: on the segment between the two points of the curve that are neighbours in azimuth (azimuths on the circle of 360 degrees), hence at an altitude between those two and exactly on a point of the curve if there is one at that azimuth. The filled area is bounded, at each of the 361 whole degrees of azimuth from -180 to 180, by a point of the curve of 21 June and a point of the curve of 21 December at that azimuth. A tick labelled with an azimuth is drawn where the chart draws the points of that azimuth, in polar and rectilinear charts; the labelled azimuths are distinct and include south: all multiples of 20 degrees round a polar chart, all multiples of 30 degrees inside a rectilinear one, and no others.", "quantifier": "all charts (latitude, longitude, date of the years 1700-2200, time zone with offsets below one day, polar or not, any list of days, months, hours and minutes) that are drawn; all curves of numbers and all azimuths; any sorting routine (numpy's is not stable)", "why_tests_cant": "periodic interpolation has a seam (wrap at 0/360), duplicates and an unstable sort: a test checks a few curves, the claim is about the curve of every day at every place", "anchors": ["src/sunwhere/_cli/solar_chart.py: SolarChart.draw_solar_grid, SolarChart.draw_background_grid"]}
{"id": "C75", "title": "The command line names the right day", "statement": "A successful `sunwhere at` prints, in this order, the day of the week, the date and the time of day of the clock reading it was given, followed by the rows of C72. The day of the week is the one reached by counting from Thursday, 1 January 1970; the date (two digits of the day, the name of the month, the year) is that of the Gregorian calendar, and readings with the same printed date are on the same day; the time shows hours, minutes and seconds of the last whole second. Producing the text never fails: there is a table if and only if the calculation succeeds.", "quantifier": "all readings of the clock (any number of nanoseconds before or after 1970), all places, algorithms, time zones that keep the reading, in an English locale (the last sentence: any locale)", "why_tests_cant": "calendar arithmetic has exceptional days (leap centuries, dates before 1970); a test checks some dates", "anchors": ["src/sunwhere/_cli/position.py: calculate_position"]}
{"id": "C76", "title": "What the benchmark reports", "statement": "The ephemeris report of the benchmark has three tables: zenith angle and azimuth in arc seconds, eccentricity correction factor in thousandths. Each has exactly one row for every method (seven pairs of algorithm and engine of sunwhere, computed without refraction, and those of other packages) that has a residue in a row whose reference zenith angle is below 180 degrees, with the scores of those residues; the rows are in increasing order of the root mean square. If the reference is within η degrees of the ephemeris sun in zenith angle and within η' of it in the correction factor, the report comes out, has every method of sunwhere in every table, and its bias, mean absolute error and root mean square are at most 3600 (E + η) arc seconds and 1000 (E' + η') thousandths, E and E' being the accuracy of the algorithm (C54). In the azimuth table they are at most 3600 B arc seconds if at every row the spread of E in azimuth (C83) plus the error of the reference's azimuth is at most B, less than 30 degrees, and the sun is never nearer to the vertical than E.", "quantifier": "all reference data (any number of rows), all columns of the other packages, times in UTC, latitudes in [-90, 90], longitudes in [-180, 180), any sorting routine", "why_tests_cant": "the report needs a reference file, three other packages and a network; which rows and methods appear, and how large the scores can be, depends on all the data", "anchors": ["src/sunwhere/_cli/benchmark.py: sunwhere_ephemeris, get_bulk_ephemeris_errors, print_bulk_errors, run_benchmark"]}
{"id": "C77", "title": "Airmass and daylight length are those of the reference sun", "statement": "For each of the four airmass formulas, the airmass returned differs from the airmass m(ζ) at the zenith angle ζ of the reference sun by at most m·m(ζ) times the error of the position (C54), wherever the reference sun is above the horizon by more than that error; with refraction ζ is the apparent zenith angle through the standard atmosphere, the error that of C68 and the sun farther than it from the zenith. The daylight length is 24/π·arccos(−tan φ tan δ) hours, δ being the declination of the reference sun, to what the error of the declination makes of it, wherever the reference sun rises and sets by a margin; it is NaN wherever the reference sun does not rise, or does not set, by that margin. The same holds in floating-point arithmetic, with 6e-8 of airmass and 1e-12 hours more.", "quantifier": "all instants of datetime64[ns], all places, use cases, algorithms, engines and parameterizations; for the floating-point versions all arithmetics with the accuracy of double precision", "why_tests_cant": "an error bound over a continuum of instants and places; near the horizon the airmass changes fast and near the polar circles the daylight length does", "anchors": ["src/sunwhere/_base.py: airmass, daylight_length, declination, zenith"]}
{"id": "C78", "title": "What the benchmark reports of the clear-sky irradiance", "statement": "After the tables of the ephemeris errors the benchmark prints one table each for global, direct normal and diffuse irradiance, in increasing order of the root mean square. Each has exactly one row for each of NREL, PSA, Iqbal, SolTrack (numexpr) and SG2 that has a difference with the reference in a row in which the reference zenith angle is below 90 degrees, holding bias, standard deviation, mean absolute error, root mean square and quantiles of the differences between the irradiance that the radiative transfer model gives for the cosine of the method's zenith angle and its eccentricity correction factor, and the one it gives for those of the reference. If the model changes by at most L per unit of the cosine and K per unit of the factor, and the reference is within η degrees and η' of the ephemeris sun, then the tables come out and the scores of the four algorithms are at most L·rad(E+η)+K(E'+η'), E and E' being the accuracy of the algorithm (C54).", "quantifier": "all series of times, places, reference data, columns of other packages and radiative transfer models; the accuracy for all smooth ones, times in UTC", "why_tests_cant": "the radiative transfer model and the reference data are downloaded or third-party; a wrong row filter or a swapped column changes every printed score by a plausible amount", "anchors": ["src/sunwhere/_cli/benchmark.py: add_clearsky_irradiance, get_bulk_clearsky_errors, print_bulk_errors, run_benchmark"]}
{"id": "C79", "title": "Labels of the results", "statement": "The arrays an object returns carry the coordinates of the request: zenith, azimuth, elevation, cosz, airmass and eth the wall-clock times and all latitudes and longitudes (for sites also the location number); latitude, longitude, ecf, eot, declination, true solar time, sunrise, sunset, daylight length and incidence the coordinates along their own dimensions, but for sites not the latitudes and longitudes. The arithmetic between the arrays inside the methods never drops, repeats or reorders rows because of labels and never fails because of them, even if times or coordinates are repeated, unsorted or missing. If the labels are distinct, selecting zenith or azimuth by the labels of a position gives exactly the value at that position.", "quantifier": "all accepted requests, use cases, algorithms, engines, arithmetics, units, parameterizations", "why_tests_cant": "xarray aligns operands by label silently; a coordinate with other labels (UTC instead of local times, say) would lose rows only for some time zones or repeated times", "anchors": ["src/sunwhere/_base.py: Sunpos.__init__, true_solar_time, sunrise, sunset, daylight_length, incidence, eth, airmass"]}
{"id": "C80", "title": "Times in zones with daylight saving time", "statement": "With times in a pytz time zone the constructor forgets the instants and infers them again from the wall-clock readings. If no time falls into a stretch of the clock that is repeated when it is put back, times_utc are the instants given, and the call returns whenever it does with naive times. If one does and its neighbours in the argument do not (a single time, say), every call fails. In chronological series with steps of at most a day, a call that returns has the right instants also in the repeated stretches, and it does return if the steps are not longer than these stretches and the series neither begins nor ends in one. In other orders the result can be silently wrong: the second occurrence of a reading followed by the first occurrence of the same or an earlier one come back with the occurrences exchanged, and so do the true solar times derived from them.", "quantifier": "all time zones with offsets below a day that change at most once in five days, all times, use cases, algorithms, engines, coordinates and arithmetics", "why_tests_cant": "the outcome depends on the whole list of times, its order and its position relative to the transitions of the zone; a test would need every zone and year", "anchors": ["src/sunwhere/_base.py: Sunpos.__init__, times_utc"]}
{"id": "C81", "title": "The project's own tests", "statement": "In exact arithmetic, the consistency tests of the project pass whatever they draw: for all admissible coordinates and times the zenith angles, declinations, equations of time and eccentricity factors of psa, soltrack and iqbal are within the tolerances of the tests (2 degrees, 2 degrees, 10 minutes, 1 percent) of those of nrel, and regular_grid and transect give what sites gives. The assertion on the azimuths can never fail, because the helper returns a tuple; what it means to say (less than 5 degrees apart) holds wherever the sun is at least 22 degrees from the zenith and the nadir, and is false for iqbal at a site at latitude 4.68 at 6:00 UTC on 31 March 2024, where the test passes all the same. In floating point (binary64 for one) the tests of the algorithms against nrel pass too, at all times and all sites off the poles such that the sun is never within 3.44 degrees of the zenith or the nadir (more for the numpy engine of soltrack near the poles).", "quantifier": "all naive times, all admissible latitudes and longitudes, all known algorithms and engines", "why_tests_cant": "the tests draw random coordinates and check these only; whether they could fail for another draw, and whether an assertion can fail at all, is a statement about all inputs", "anchors": ["tests/conftest.py: azimdist, get_da_for_sites, get_da_for_regular_grid, get_da_for_transect", "tests/test_consistency.py"]}
{"id": "C82", "title": "Names, units and ranges of the results", "statement": "Every array that an object returns shows the name of its quantity (sza and saa that of the alias, dec that of declination) and the unit its values are in; sunrise and sunset in local time show the name of the time zone, UTC if the zone object has none. The true solar time has no unit, and the daylight length has one only with versions of xarray whose operations keep attributes, because it is set before the multiplication. The ranges that zenith, elevation, azimuth and cosz show are right for psa and nrel and, without refraction, for soltrack and iqbal. With versions of xarray whose operations keep attributes (those pyproject.toml asks for), eth without correction and with two of the three corrections shows the range of the cosine, [-1, 1], which is wrong wherever the sun is 0.05 degrees above the horizon.", "quantifier": "all successful calls, all methods and arguments of methods, both attribute rules of xarray; for the ranges all instants and places", "why_tests_cant": "whether a stated range holds is a statement about all inputs, and the attributes come out of a chain of operations that differs with the arguments and the version of xarray", "anchors": ["src/sunwhere/_base.py: assign_attrs and rename in latitude, longitude, ecf, eot, declination, zenith, sza, elevation, azimuth, saa, cosz, eth, airmass, sunrise, sunset, daylight_length, incidence, true_solar_time"]}
{"id": "C83", "title": "The azimuth is accurate", "statement": "The azimuth does not depend on refraction: whatever is passed for it, a call that returns still returns, with the same azimuth at every cell. Wherever the sun is farther from the zenith and the nadir than the error E of the algorithm against the reference ephemeris (0.022 degrees for soltrack, 0.063 for nrel, 1.605 for iqbal, 0.107 for psa with numexpr and 0.199 with numpy), the azimuth returned differs from that of the reference, up to full turns, by at most the angle whose sine is sin E / sin zenith, which is at most 1.571 E / sin zenith; hence two algorithms differ by at most the sum of theirs. In floating point rounding adds at most 0.00076 degrees over the sine of the zenith angle (over the cosine of the latitude too for the numpy engine of soltrack), for suns at least 3.44 degrees from the vertical.", "quantifier": "all use cases, algorithms, engines and values of refraction, all instants of datetime64[ns], all places and all arithmetics with the stated accuracy (binary64 for one)", "why_tests_cant": "the error depends on the place of the sun and grows without bound towards the zenith; a bound that follows the sine of the zenith angle at every instant and place cannot be sampled", "anchors": ["src/sunwhere/_base.py: azimuth, saa", "src/sunwhere/usecases.py: sites, regular_grid, transect", "src/sunwhere/libspa: ne_psa, py_psa, ne_soltrack, py_soltrack, ne_iqbal, py_iqbal, ne_nrel"]}
{"id": "C84", "title": "The sun at noon and at midnight", "statement": "Without refraction the zenith angle is, at every instant and place, at least |latitude - declination| and at most 180 degrees minus |latitude + declination|, to within the parallax and the rounding of the algorithm (0 for iqbal, 0.0025 degrees for soltrack and for psa with numexpr, 0.0051 for nrel, 0.0945 for psa with numpy); the lower bound is exact for iqbal, soltrack and psa with numexpr. Those bounds are reached at noon and at midnight of true_solar_time: when it shows v hours from noon the zenith angle is |latitude - declination|, and when it shows v hours from midnight it is 180 degrees minus |latitude + declination|, to within 15 v degrees plus the same slack plus 0.0253 degrees for psa, 0.0042 for iqbal and 0.0069 for the others. Of two results, of any calls, instants and places, the sun is higher where true_solar_time is nearer to noon, up to the difference of the declinations plus that of the latitudes plus those slacks; hence, at one instant and one latitude, up to the slacks alone. In floating point rounding loosens the first bounds by at most 0.0014 degrees over the sine of the zenith angle, for suns at least 3.44 degrees from the vertical.", "quantifier": "all use cases, algorithms and engines, all instants of datetime64[ns] whose times_utc is the instant asked for, all places, and for the rounding all arithmetics with the stated accuracy (binary64 for one)", "why_tests_cant": "the bounds must hold at every instant and latitude, and the instants of noon are not on any grid of test times; zenith, declination and true_solar_time come from different formulas of four algorithms", "anchors": ["src/sunwhere/_base.py: zenith, sza, declination, true_solar_time", "src/sunwhere/usecases.py: sites, regular_grid, transect", "src/sunwhere/libspa: ne_psa, py_psa, ne_soltrack, py_soltrack, ne_iqbal, py_iqbal, ne_nrel"]}
{"id": "C85", "title": "Missing dependencies", "statement": "sunwhere can be imported exactly when numpy, pandas, loguru and xarray can and importing numexpr either works or raises ImportError (any other exception propagates). SPA_ALGORITHMS lists the four algorithms in any case. With engine numpy, or with numexpr installed, every call does what it does in a complete installation, errors included. Without numexpr no call with another engine (the default is numexpr) returns: arguments that would be rejected are rejected with the same exception, and every call that would have returned raises AttributeError, not the ValueError of an unknown engine. So with acceptable arguments the pairs that work are psa, soltrack and iqbal with numpy and, if numexpr is there, the four algorithms with numexpr.", "quantifier": "all sets of installed packages and ways their import can fail, the three use cases, all algorithm and engine strings, all arguments", "why_tests_cant": "the tests run with every package installed; the guarded imports and the table of modules with None in it are never exercised", "anchors": ["src/sunwhere/utils/__init__.py: safe_import", "src/sunwhere/_core.py: __ALGORITHMS__, evaluate", "src/sunwhere/__init__.py: SPA_ALGORITHMS", "src/sunwhere/usecases.py: sites, regular_grid, transect"]}
{"id": "C86", "title": "Objects share no memory with the caller, except latitude, longitude, ecf and eot", "statement": "Take any program that makes arrays, calls sites, regular_grid and transect with them, reads attributes and calls methods of the returned objects in any order, and writes into any array it holds. What an object says (every attribute and method) is what the call computed from the values its arguments had at the call, for ever: overwriting the input arrays afterwards, writing into arrays returned by zenith, azimuth, cosz, eth(), sunrise(), incidence()..., calling use cases again or reading in another order changes nothing. No call and no method writes into its arguments or into arrays handed out before, and a call that raises leaves no trace. The only exception is writing into the arrays returned by latitude, longitude, ecf and eot: these are the object's own, so the write changes exactly that array of that object and everything computed from it afterwards, in that object only.", "quantifier": "all histories (finite sequences of any length of array creations, use case calls, attribute and method reads, and writes to any cell of any array held), all arguments, all objects and arrays, any floating point arithmetic", "why_tests_cant": "It is a statement about every interleaving of calls, reads and writes; a test runs one short history.", "anchors": ["src/sunwhere/_base.py:Sunpos", "src/sunwhere/usecases.py:sites", "src/sunwhere/usecases.py:regular_grid", "src/sunwhere/usecases.py:transect"]}
{"id": "C87", "title": "The seasons", "statement": "With dates taken in UTC in the Gregorian calendar, for every instant a datetime64[ns] can hold (1677-2262), every algorithm, engine and use case: the declination is positive (0.94 degrees at least) from 1 April to 10 September and negative (-0.94 at most) from 1 October to 10 March; it is at least 21 degrees from 1 June to 10 July and at most -21 degrees from 1 December to 10 January, to the error of the algorithm's declination (0.0311 psa, 0.007 soltrack, 0.019 nrel, 1.06 iqbal). Where daylight_length is a number it is therefore over 12 hours in the summer of either hemisphere and under 12 hours in its winter. From 1 June to 10 July the sun is up (zenith below 90) at every instant north of 71 degrees and down (zenith above 90) at every instant south of -72 degrees, with and without refraction, and from 1 December to 10 January the reverse (the polar night is not claimed for soltrack with refraction, whose correction has a pole below the horizon). The signs (0.93 degrees at least), the bounds (to 4e-8 degrees), the midnight sun and the polar night also hold in floating point (for nrel not at the poles themselves, for soltrack with numpy up to 84 degrees of latitude).", "quantifier": "all instants of 1677-2262, all places, algorithms, engines, use cases and refraction arguments, exact arithmetic and every rounding arithmetic within the stated error bounds", "why_tests_cant": "It holds for every date of six centuries (leap years included) and every place of the polar caps; tests sample a few dates.", "anchors": ["src/sunwhere/usecases.py:sites", "src/sunwhere/_base.py:Sunpos", "src/sunwhere/libspa/ne_psa.py", "src/sunwhere/libspa/py_psa.py", "src/sunwhere/libspa/ne_soltrack.py", "src/sunwhere/libspa/ne_nrel.py", "src/sunwhere/libspa/ne_iqbal.py"]}
{"id": "C88", "title": "On which side of the sky the sun is", "statement": "The azimuth of every call is on the equator's side of the sky (below 90 degrees in absolute value on the northern hemisphere, above it on the southern) all day in winter: at every instant from 1 October to 10 March (1 April to 10 September on the southern hemisphere) at which the returned zenith angle is at most 90 degrees (soltrack with refraction excepted). In summer (the other way round) it is on the pole's side whenever the returned zenith angle is at least 90 degrees, 89.2 without refraction: the sun rises and sets there. Beyond 26 degrees of latitude it is on the equator's side within half an hour of the noon of true_solar_time, on every day of the year. In floating point, without refraction, the first two hold (the second from 89.3 degrees) for suns at least 3.44 degrees from the vertical.", "quantifier": "all instants of 1677-2262, all places, algorithms, engines, use cases and refraction arguments; exact arithmetic and every rounding arithmetic within the stated error bounds", "why_tests_cant": "The statement ranges over every day of six centuries and every place; the sign conventions of the azimuth, the declination and the hour angle have to fit in every quadrant.", "anchors": ["src/sunwhere/usecases.py:sites", "src/sunwhere/_base.py:Sunpos.azimuth, Sunpos.zenith, Sunpos.true_solar_time", "src/sunwhere/libspa/ne_psa.py", "src/sunwhere/libspa/py_psa.py", "src/sunwhere/libspa/ne_soltrack.py", "src/sunwhere/libspa/ne_nrel.py", "src/sunwhere/libspa/ne_iqbal.py"]}
{"id": "C89", "title": "The course of the year", "statement": "With dates taken in UTC in the Gregorian calendar, for every instant a datetime64[ns] can hold, every algorithm, engine and use case: from 10 December to 20 January ecf is at least 1.027 and from 10 June to 20 July at most 0.974, to the error of the algorithm (4.2e-4 nrel, 0.0046 iqbal, 8.6e-6 others), so that at the same zenith angle above the horizon eth with am_correction 'none' is at least 4 % larger in the first interval than in the second, whatever the two calls; in October and November the equation of time is at least +5 minutes (the sundial is ahead) and from 15 January to the end of February at most -5 minutes, to the error of the algorithm (0.182 minutes psa, 0.0147 soltrack, 0.117 nrel, 2.15 iqbal), with no jumps of a day. The bounds hold in floating point to 2e-10 and 1.1e-6 minutes.", "quantifier": "all instants of 1677-2262, algorithms, engines, use cases, places and solar constants; exact arithmetic and every rounding arithmetic within the stated error bounds", "why_tests_cant": "It holds on every date of six centuries in four independent ephemerides; tests compare a few dates.", "anchors": ["src/sunwhere/usecases.py:sites", "src/sunwhere/_base.py:Sunpos.ecf, Sunpos.eot, Sunpos.eth", "src/sunwhere/libspa/ne_psa.py", "src/sunwhere/libspa/py_psa.py", "src/sunwhere/libspa/ne_soltrack.py", "src/sunwhere/libspa/ne_nrel.py", "src/sunwhere/libspa/ne_iqbal.py"]}
{"id": "C90", "title": "The earth turns once a day", "statement": "Between any two results of any calls (use cases, algorithms, engines, instants, places; without refraction), the angle between the two directions of the sun, each in its own horizon, and the difference of the zenith angles, are at most the difference of the latitudes, plus the difference of the mean solar times (360 degrees a day plus the longitude) up to whole turns, plus 0.6 degrees for each day between the instants, plus the two errors of C54. Hence a place of the same latitude 15 degrees farther west sees the same sun an hour later, across the date line too, and one place sees the sun of the same hour n days later within 0.6 n degrees. With refraction, for suns above the horizon, the zenith angles obey the same bound plus the refraction errors of C68, and both hold in floating point plus the rounding errors of C64 and C69. true_solar_time advances between any two results by the time passed plus 4 minutes per degree of longitude, to 0.57 minutes a day plus the errors of the equation of time and 2 ns, without jumps by whole days; at one place it runs forward for instants further apart than two errors of the equation of time.", "quantifier": "all pairs of results of accepted calls: instants of 1677-2262, places, algorithms, engines, use cases; exact arithmetic and every rounding arithmetic within the stated error bounds", "why_tests_cant": "It relates every pair of instants and places; wrong signs of the longitude, of sidereal time or of the equation of time, and jumps at midnight or the date line, show only for some pairs.", "anchors": ["src/sunwhere/usecases.py:sites, regular_grid, transect", "src/sunwhere/_base.py:Sunpos.zenith, Sunpos.azimuth, Sunpos.true_solar_time", "src/sunwhere/libspa/ne_psa.py", "src/sunwhere/libspa/py_psa.py", "src/sunwhere/libspa/ne_soltrack.py", "src/sunwhere/libspa/ne_nrel.py", "src/sunwhere/libspa/ne_iqbal.py"]}
{"id": "C91", "title": "The days grow and shrink; the equinoxes", "statement": "Of two instants of one year between 10 January and 31 May, the later has the larger declination, by 0.1 degrees per day at least up to the errors of the algorithms (C54), and by 0.22 degrees per day between 1 February and 10 May; between 15 July and 25 November (5 August and 5 November) it has the smaller one. So at one place north of the equator daylight_length grows in the first window and shrinks in the second wherever both days have sunrise and sunset and lie far enough apart for the errors (less than a day with psa, soltrack and nrel, 22 days with iqbal); south of the equator reversed. Every year from 1678 to 2261 has an instant between 10 and 31 March and one between 10 and 30 September at which every call, with every algorithm, returns a declination of zero up to the error of the algorithm and, within 60 degrees of the equator, a daylight_length within 0.24 hours per degree of that error of 12 hours. The declination statements hold in floating point with 1e-7 degrees more.", "quantifier": "all pairs of results of accepted calls with instants of one year in a window (algorithms, engines, use cases, places may differ); all years 1678-2261; exact arithmetic and every rounding arithmetic within the stated error bounds", "why_tests_cant": "It relates every pair of instants of every year and asserts an instant common to all algorithms; a wrong sign, phase or leap rule shows only at some dates of some years.", "anchors": ["src/sunwhere/_base.py:Sunpos.dec, Sunpos.daylight_length", "src/sunwhere/libspa/ne_psa.py", "src/sunwhere/libspa/py_psa.py", "src/sunwhere/libspa/ne_soltrack.py", "src/sunwhere/libspa/ne_nrel.py", "src/sunwhere/libspa/ne_iqbal.py"]}
{"id": "C92", "title": "What the speed test measures", "statement": "A call of the speed test (speed_meter) on sunwhere that returns has run exactly n_repeats*number calls of one function, sites when n_locs is an int and regular_grid when it is a text 'mxn', all with refraction off, with the algorithm and engine named by 'algorithm_engine' and the n_times minutes from one midnight on; each of those results holds n_times times the number of places zenith angles, and the mean returned is the mean time of a repetition in microseconds divided by the number of zenith angles it computed. No number comes out exactly when nothing was measured (no repetition, call, time or place). For every known pair of algorithm and engine, up to 1e8 times, any number of places and any random numbers in the documented ranges the test succeeds (no drawn grid leaves the accepted coordinates). An unknown library or an n_locs that is neither int nor str is an UnboundLocalError; a method not of the form algorithm_engine, or an unknown pair, is a ValueError. A text that is a number without an x is an IndexError, one whose first piece is not a number a ValueError, for every library.", "quantifier": "all random draws within their ranges, methods, numbers of times, places, repeats and calls, all timings; any arithmetic for what is measured, exact arithmetic for success", "why_tests_cant": "Times and places are random: a test sees a few draws, and a wrong divisor or a drawn grid that leaves the accepted range at some draw changes or breaks a number that no test can predict.", "anchors": ["src/sunwhere/_cli/benchmark.py: speed_meter", "src/sunwhere/usecases.py: sites, regular_grid"]}
{"id": "C93", "title": "The columns of the other packages in the benchmark", "statement": "The benchmark compares like with like: the azimuth it makes of a compass bearing of pvlib (clockwise from north, in [0,360)) is in [-180,180) and, with the zenith angle, is the same direction in sunwhere's convention (zero south, positive west); of the elevation, bearing (radians) and distance of sg2 it makes the zenith angle and azimuth of the same direction and one over the squared distance; pvlib gives no eccentricity correction factor, and no method of pvlib is ever in that table of the report.", "quantifier": "all bearings, elevations, non-zero distances and columns of any length; every report with every sorting by rmse", "why_tests_cant": "A sign or branch error would move the other packages' errors only in part of the sky and would show as a worse score, which no test can tell from a real difference.", "anchors": ["src/sunwhere/_cli/benchmark.py: pvlib_ephemeris, sg2_ephemeris, get_bulk_ephemeris_errors"]}
{"id": "C94", "title": "One sun for the whole earth", "statement": "For every algorithm and every instant there is one point of the globe, whose latitude is the declination returned by every call at that instant and whose longitude is the one at which the returned equation of time makes it noon (to 0.0253 degrees psa, 0.0042 iqbal, 0.0069 others), such that every call without refraction, with any engine, in any use case and at any place, returns as zenith angle the great-circle distance of the place from that point, to within parallax and rounding (0 for iqbal, 0.0025 degrees for soltrack and psa with numexpr, 0.0051 for nrel, 0.0945 for psa with numpy); a call at that point has the sun overhead. So at one instant two zenith angles differ by at most the great-circle distance of the places, and at antipodes they add up to 180 degrees: the sun is up at one and down at the other. Between different algorithms the same holds with the errors of C54, and at antipodes the azimuths are opposite (zenith 180 - z, azimuth -a); for the zenith angles also in floating point plus the rounding errors of C64.", "quantifier": "all instants, places, pairs of results of accepted calls without refraction; exact arithmetic and every rounding arithmetic within the stated error bounds", "why_tests_cant": "It relates the results at all pairs of places on the globe; a wrong sign of the longitude or latitude, or a wrap-around at the date line or the poles, shows only in some of them.", "anchors": ["src/sunwhere/_base.py: Sunpos.zenith, Sunpos.dec, Sunpos.eot", "src/sunwhere/libspa/ne_psa.py", "src/sunwhere/libspa/py_psa.py", "src/sunwhere/libspa/ne_soltrack.py", "src/sunwhere/libspa/py_soltrack.py", "src/sunwhere/libspa/ne_nrel.py", "src/sunwhere/libspa/ne_iqbal.py"]}
{"id": "C95", "title": "What the figures of the benchmark show", "statement": "The figure of accuracy of the benchmark, if it comes out, has strips only for the four algorithms of sunwhere (with numexpr), three methods of pvlib and SG2, under fixed names; the points of a strip are, up to order, exactly the absolute zenith and azimuth errors of the column of its method against the reference, one per row in which zenith, azimuth or eccentricity correction factor has an error, and the strips come in increasing order of the mean absolute error of the zenith angle. It comes out exactly if every method with an error somewhere has one in the zenith angle, otherwise it ends in a KeyError (also because of a method that is not drawn). If the reference is within eta degrees of the ephemeris sun, each strip of sunwhere has a point for every row, at most the accuracy of the algorithm (C54) plus eta; the number of samples in the title counts all strips together, at least four times the number of rows. The figure of speeds shows the mean duration of a call in seconds, and the speeds measured for it are 400 requests of which all those of sunwhere succeed, with a mean and at most fifty million positions per call, covering every algorithm with every engine it has.", "quantifier": "all reference tables, all columns of other packages, all instants and places; all outcomes of the random generator and of the clock; every sort that sorts", "why_tests_cant": "The figure is not checked by any test; a lost row, a swapped column or a name under the wrong strip is not visible in the densities, and depends on which values are missing.", "anchors": ["src/sunwhere/_cli/benchmark.py: plot_accuracy, calc_residues, get_bulk_ephemeris_errors, load_speed_tests, plot_exec_time, run_benchmark"]}
{"id": "C96", "title": "The switches of the chart's grid", "statement": "The grid of the solar chart has two switches, for the curve of 21 June and for that of 21 December. A curve is drawn exactly if its switch is the object True (1 or 'yes' leave it out) and then shows the sun every two minutes of that day of the chart's year, in the chart's zone; the area between the two is filled exactly if both are drawn. Nothing else depends on the switches: whenever the grid with the default switches comes out, it comes out with any other values and has the same year, analemmas, hour labels and day curves. In particular, whatever the switches and whatever days and months were asked for, there is a day curve 21/06 and one 21/12, not empty, showing the sun every five minutes of those days.", "quantifier": "all charts, places, zones, clocks, lists of days, months, hours and minutes, and all Python values of the switches", "why_tests_cant": "The figure is not inspected by any test; whether a switch leaks into the rest of the grid depends on the combination of zone, year and lists asked for.", "anchors": ["src/sunwhere/_cli/solar_chart.py: SolarChart.draw_solar_grid"]}
{"id": "C97", "title": "The table of speeds across interrupted runs", "statement": "load_speed_tests keeps one file per method (seven of sunwhere, two of pvlib, one of sg2). Whatever its directory holds and wherever it is killed, a call changes no file that is there, makes no other file, and leaves a file that cannot be read only if it is killed in the middle of writing it; it measures exactly what the missing files need, in order, up to where it stops. A call that returns gives the ten frames in order, each as in its file, found or just measured. It fails only when killed, when a file cannot be read or when a measurement raises. Uninterrupted, with no broken file and no exception of the other packages, it returns within 420 effects, and from then on every call returns the same at once without measuring. A file broken by a kill is never repaired: after any further history no call returns. With the pandas the project requires (copy-on-write, at least 3.0.2) no measurement is kept: starting without files, after any history, every frame in the directory and every frame returned has all its 48 cells missing, though 400 measurements were made; with the pandas of before, each cell is the mean of its measurement, and missing only for the 50x50 and 100x100 grids at more than 1000 times.", "quantifier": "all directories, all histories of calls, each killed after any number of effects or ended by any exception, all clocks and random generators, each measurement with its own", "why_tests_cant": "A kill can hit any of hundreds of effects in any of a sequence of runs, and what a later run returns depends on the whole history.", "anchors": ["src/sunwhere/_cli/benchmark.py: load_speed_tests, speed_meter"]}
{"id": "C98", "title": "The solstices; the longest and the shortest day", "statement": "Every year from 1678 to 2261 has an instant between 10 and 29 June and one between 10 and 29 December that are its solstices for every algorithm and engine at once, up to the errors of the algorithms (C54): the declination returned there is 23.44 degrees (north in June, south in December) within 0.043 degrees and the error; at no instant whatever is it larger on that side, up to the errors of both calls and 4e-7 degrees per day between; n days earlier or later it has fallen by at most 0.004 n^2 degrees and, within 320 days, by at least 0.003 n^2 degrees (2.7 degrees from the thirtieth day on), up to the same. So at one place north of the equator the day of the June solstice is longer than every other day within 320 days that lies far enough for the errors (3 days with soltrack, 5 with psa, 4 with nrel, 27 with iqbal) where both have sunrise and sunset, and that of the December solstice shorter; south of the equator reversed. The declination statements hold in floating point with 1e-7 degrees more.", "quantifier": "all years 1678-2261, both solstices; all pairs of results of accepted calls, one at the solstice and one at any instant of datetime64[ns] (algorithms, engines, use cases, places may differ); exact arithmetic and every rounding arithmetic within the stated error bounds", "why_tests_cant": "It asserts an instant common to all algorithms in every year and compares it with every other instant; a wrong phase, obliquity or leap rule shows only at some dates of some years.", "anchors": ["src/sunwhere/_base.py:Sunpos.dec, Sunpos.daylight_length", "src/sunwhere/libspa/ne_psa.py", "src/sunwhere/libspa/py_psa.py", "src/sunwhere/libspa/ne_soltrack.py", "src/sunwhere/libspa/ne_nrel.py", "src/sunwhere/libspa/ne_iqbal.py"]}
{"id": "C99", "title": "Perihelion and aphelion", "statement": "Every year from 1679 to 2261 has an instant between 23 December of the year before and 12 January at which the sun is nearest and one between 24 June and 14 July at which it is farthest, for every algorithm and engine at once, up to the errors of the algorithms (C54): ecf there is 1.0343 and 0.9674 within 0.0004 and the error; at no instant whatever is ecf larger (smaller), up to the errors of both calls and 3e-9 per day between; n days earlier or later it has fallen (risen) by at most 6e-6 n^2 and, within 300 days, by at least 4e-6 n^2 (0.01 from the fiftieth day on), up to the same. So at the same zenith angle by day eth with am_correction 'none' and any positive solar constant is larger at perihelion, and smaller at aphelion, than at every instant within 300 days that lies far enough for the errors (3 days with psa and soltrack, 15 with nrel, 48 with iqbal), whatever the two calls. The statements on ecf hold in floating point with 5e-10 more.", "quantifier": "all years 1679-2261, both apsides; all pairs of results of accepted calls, one at the apsis and one at any instant of datetime64[ns] (algorithms, engines, use cases, places, solar constants may differ); exact arithmetic and every rounding arithmetic within the stated error bounds", "why_tests_cant": "It asserts an instant common to all algorithms in every year and compares it with every other instant; the date drifts by ten days over the six centuries and crosses the turn of the year.", "anchors": ["src/sunwhere/_base.py:Sunpos.ecf, Sunpos.eth", "src/sunwhere/libspa/ne_psa.py", "src/sunwhere/libspa/py_psa.py", "src/sunwhere/libspa/ne_soltrack.py", "src/sunwhere/libspa/ne_nrel.py", "src/sunwhere/libspa/ne_iqbal.py"]}
{"id": "C100", "title": "The sundial and the clock agree four times a year", "statement": "In every year from 1678 to 2260 there are four instants, one between 28 February and 11 May, one between 12 May and 24 July, one between 25 July and 30 September and one between 30 November and 14 January of the next year, each the same for all algorithms, engines, use cases and places, at which the equation of time is zero: eot of every accepted call there is at most the error of its algorithm (C54: 0.182 minutes with psa, 0.0147 with soltrack, 0.117 with nrel, 2.15 with iqbal) and 1e-7 minutes. In floating point the same instants serve, with 1.3e-6 minutes in place of 1e-7. The signs alternate: at every instant of 12 May eot is at least 1.5 minutes and at every instant of 25 July at most -2.5, up to the error of the algorithm (with C89: negative in February, positive in October and November).", "quantifier": "all years 1678-2260, the four parts of each; all results of accepted calls at the instant (algorithms, engines, use cases, places); exact arithmetic and every rounding arithmetic within the stated error bounds", "why_tests_cant": "It asserts an instant common to all algorithms in each part of every year; where the sign changes depends on the ellipse and the tilt together and drifts over the centuries, and the last of the four crosses the turn of the year.", "anchors": ["src/sunwhere/_base.py:Sunpos.eot", "src/sunwhere/libspa/ne_psa.py", "src/sunwhere/libspa/py_psa.py", "src/sunwhere/libspa/ne_soltrack.py", "src/sunwhere/libspa/ne_nrel.py", "src/sunwhere/libspa/ne_iqbal.py"]}
