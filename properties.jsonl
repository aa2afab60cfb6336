{"id": "C01", "title": "Gregorian calendar date and Julian day number are exact inverses", "statement": "Converting any proleptic Gregorian calendar date (year, month 1-12, day valid for that month) to a Julian day number and converting that number back yields the same date; and converting any integer Julian day number to a date always yields a month in 1..12 and a day valid for that month, whose Julian day number is the original integer.", "quantifier": "every integer Julian day number, and every valid (year, month, day) with an arbitrary (also zero or negative) integer year", "why_tests_cant": "The domain is all integers; truncating-division mistakes show up only in particular centuries or at negative years, which a finite sample misses.", "anchors": ["skyfield/timelib.py: julian_day, compute_calendar_date, julian_date, Timescale.tt"]}
{"id": "C02", "title": "Julian day numbers agree with the calendar's own leap-year rules", "statement": "The Julian day number of the calendar day following a date (by the Gregorian month lengths and leap-year rule) is exactly one more than that of the date, and 2000 January 1 is 2451545; hence dates order exactly as their day numbers do and the number of days between two dates is the difference of their day numbers. The same holds with the Julian calendar's rule when the Julian calendar is requested.", "quantifier": "every valid calendar date in any integer year, both calendars", "why_tests_cant": "Agreement with the leap year rule must hold across all 400-year cycles and before year zero.", "anchors": ["skyfield/timelib.py: julian_day, compute_calendar_date"]}
{"id": "C03", "title": "A Julian-to-Gregorian calendar cutoff is honoured consistently", "statement": "With a calendar cutoff configured, every Julian day number from the cutoff on reads as its Gregorian date and every earlier one as its Julian-calendar date, and feeding the date that was read back in yields the same day number; with the Papal cutoff 2299161, 1582 October 4 is followed by 1582 October 15.", "quantifier": "every integer Julian day number and every cutoff at or after the day where the two calendars last agreed (the property fails for earlier cutoffs, which is proved too)", "why_tests_cant": "Two functions decide the side of the cutoff using different quantities; whether they always agree is a statement over all days and all cutoffs.", "anchors": ["skyfield/timelib.py: julian_day, compute_calendar_date, Timescale.julian_calendar_cutoff, GREGORIAN_START, GREGORIAN_START_ENGLAND"]}
{"id": "C04", "title": "Month and day overflow in calendar arguments is plain arithmetic", "statement": "Adding 12k months to a calendar month argument has the same effect as adding k to the year, and adding d to the day argument moves the resulting date by exactly d days, so month 13 is January of the next year and month 0 December of the previous one.", "quantifier": "all integers for year, month, day, k and d", "why_tests_cant": "Overflow inputs are unbounded in both directions.", "anchors": ["skyfield/timelib.py: julian_day, Timescale.utc, Timescale.tt"]}
{"id": "C05", "title": "A UTC date and time survives the trip through a Time object", "statement": "Building a time from UTC calendar fields and reading its UTC fields back returns the same year, month, day, hour, minute and second, including during a leap second (23:59:60.x) of any day in the leap second table.", "quantifier": "every valid UTC date and time of day at any rational second, and every leap second table whose entries are spaced apart and whose offset steps by one second", "why_tests_cant": "Leap second boundaries are rare points in an infinite domain, and the tables are loaded at run time.", "anchors": ["skyfield/timelib.py: Timescale.__init__, Timescale._utc, Time._utc_tuple, Time._utc_seconds, Time._tai_seconds"]}
{"id": "C06", "title": "The leap second flag is raised exactly inside leap seconds", "statement": "When a time is converted to UTC, the second reported reaches 60 (and the leap second flag is 1) if and only if the instant lies in the one-second interval that the leap second table inserts before midnight; at every other instant seconds are below 60.", "quantifier": "every instant and every well-formed leap second table", "why_tests_cant": "The instants in question form intervals of one second in an unbounded time line with an arbitrary table.", "anchors": ["skyfield/timelib.py: Time._utc_tuple, Time._utc_seconds, Time.utc_datetime_and_leap_second"]}
{"id": "C07", "title": "UTC never runs backwards", "statement": "A UTC reading that is later in (year, month, day, hour, minute, second) order always denotes a strictly later instant, and a later instant never yields an earlier UTC reading.", "quantifier": "all pairs of instants, all pairs of valid UTC readings, all well-formed leap second tables", "why_tests_cant": "Monotonicity is a statement over all pairs, with the delicate cases at the table's breakpoints.", "anchors": ["skyfield/timelib.py: Timescale._utc, Time._utc_tuple"]}
{"id": "C08", "title": "Rounded UTC output is the nearest displayable time", "statement": "Printing a time in UTC with whole seconds (or n decimal places, or as a datetime in microseconds) yields the representable UTC reading nearest to the instant (within half a unit), carrying correctly into minutes, hours, days and years; it never prints second 60 except inside a leap second, never minute 60 or hour 24.", "quantifier": "every instant, every number of decimal places, every well-formed leap second table", "why_tests_cant": "Rounding carry cases (\u202659.9999) compound with leap seconds; the set of inputs is a continuum.", "anchors": ["skyfield/timelib.py: Time.utc_iso, Time.utc_jpl, Time.utc_strftime, Time.utc_datetime_and_leap_second, _strftime_offset_seconds, Timescale._strftime"]}
{"id": "C09", "title": "Calendar tuples have in-range fields and denote the instant they came from", "statement": "The calendar tuple of a time in any scale has month 1-12, a day valid for the month, hour 0-23, minute 0-59 and 0 <= second < 60, and its fields recombine to exactly the original Julian date.", "quantifier": "every whole/fraction pair of a Julian date", "why_tests_cant": "Continuum of inputs; the failure cases are boundaries between days.", "anchors": ["skyfield/timelib.py: calendar_tuple, Time.tt_calendar, Time.tdb_calendar, Time.ut1_calendar, Time.tai_calendar"]}
{"id": "C10", "title": "Time arithmetic is consistent", "statement": "Adding a number of days (or a timedelta) to a time and then subtracting it returns the same instant; the difference of two times is the number of days between them, and adding it to the earlier gives the later; comparison operators agree with the sign of that difference and equal times have equal hashes.", "quantifier": "all times and all rational offsets, including times split into different whole and fractional parts", "why_tests_cant": "An algebraic law over all pairs of representations.", "anchors": ["skyfield/timelib.py: Time.__add__, Time.__sub__, Time.__eq__, Time.__lt__, Time.__hash__"]}
{"id": "C11", "title": "Each time scale constructor reads back as itself", "statement": "A time built from a TT, TAI or Julian-year value gives back exactly that value on the same scale; for UT1 and TDB the value read back differs from the one given by at most a bound derived from how fast Delta-T (respectively TDB-TT) changes.", "quantifier": "all inputs and all Delta-T curves with a given rate bound", "why_tests_cant": "The UT1 constructor is an unrolled fixed-point iteration; its error must be bounded for every Delta-T curve.", "anchors": ["skyfield/timelib.py: Timescale.tt_jd, Timescale.tai_jd, Timescale.tdb_jd, Timescale.ut1_jd, Timescale.J, Time.tai_fraction, Time.tdb_fraction, Time.ut1_fraction, Time.dut1"]}
{"id": "C12", "title": "TDB stays close to TT", "statement": "The difference between TDB and TT never exceeds 2 milliseconds in size for any date within 29 centuries of J2000, and the documented blanket claim fails for remote enough dates.", "quantifier": "every real date in the stated span", "why_tests_cant": "A sup over a continuum of a sum of sinusoids with a secular term.", "anchors": ["skyfield/timelib.py: tdb_minus_tt"]}
{"id": "C13", "title": "Delta-T is looked up without gaps", "statement": "Delta-T equals the table entry at every table date, is linear between neighbouring entries, and outside the table equals the long-term curve; the joining splines built for the past and the future match value and slope at both of their ends, so the curve has no jump at a join.", "quantifier": "every date and every table", "why_tests_cant": "Tables are data loaded at run time; continuity is a statement about all points of a join and all tables.", "anchors": ["skyfield/timelib.py: DeltaT, build_delta_t, build_delta_t_table", "skyfield/curvelib.py: Splines, build_spline_given_ends"]}
{"id": "C14", "title": "linspace produces evenly spaced times from the first to the last", "statement": "linspace(t0, t1, n) has n times, starts exactly at t0, ends exactly at t1, and consecutive times are (t1-t0)/(n-1) apart.", "quantifier": "all t0, t1 and n >= 2", "why_tests_cant": "All sizes.", "anchors": ["skyfield/timelib.py: Timescale.linspace"]}
{"id": "C15", "title": "Events reported by a discrete search are real", "statement": "Every event returned by find_discrete lies in the search interval, the function really has the reported value at the reported time, and it has a different value at some earlier moment no more than epsilon before (so each reported event brackets a change within epsilon).", "quantifier": "every integer-valued function of time, every interval, step, epsilon and subdivision count >= 3", "why_tests_cant": "The function is a parameter: no finite set of example functions settles it.", "anchors": ["skyfield/searchlib.py: find_discrete, _find_discrete"]}
{"id": "C16", "title": "A discrete search misses no change visible at its sampling step", "statement": "The events returned by find_discrete are in strictly increasing time order, one for every consecutive pair of initial samples with different values at least, and replaying the reported values starting from the value at the start gives the value at the end; whenever two of the initial sample values differ there is an event between them.", "quantifier": "every integer-valued function, interval and sampling", "why_tests_cant": "Quantifies over all functions; the refinement loop re-partitions brackets in a data dependent way.", "anchors": ["skyfield/searchlib.py: find_discrete, _find_discrete"]}
{"id": "C17", "title": "The discrete search terminates", "statement": "For subdivision counts of at least 3 each refinement round divides every bracket's width by (num-1), so after finitely many rounds all brackets are below epsilon and the search stops; with two subdivisions it never stops on a function that changes, and with one it returns without the events.", "quantifier": "every function, interval, epsilon > 0 and num", "why_tests_cant": "Termination is not observable by testing.", "anchors": ["skyfield/searchlib.py: _find_discrete"]}
{"id": "C18", "title": "Maxima found are within the interval and separated", "statement": "The times returned by find_maxima lie between the start and end times (inclusive), are in increasing order with any two more than epsilon apart, and each lies strictly between two moments where the function is strictly lower than the reported value, which is the function's value at the reported time (or, in the middle of a run of equal samples, at those samples); and if three of the initial samples inside the interval go up and then down, a maximum is found between them. (That a reported time is within epsilon of a true maximum, or that the value in the middle of a level run is the function's value there, is false; witnesses are proved.)", "quantifier": "every real-valued function, interval, step and epsilon", "why_tests_cant": "Quantifies over all functions.", "anchors": ["skyfield/searchlib.py: find_maxima, _choose_brackets, _identify_maxima, _remove_adjacent_duplicates"]}
{"id": "C19", "title": "Minima are the maxima of the negated function", "statement": "find_minima(f) returns exactly the times find_maxima(-f) returns with the signs of the values turned back, and each lies strictly between two moments where the function is strictly higher than the reported value.", "quantifier": "every real-valued function", "why_tests_cant": "Quantifies over all functions.", "anchors": ["skyfield/searchlib.py: find_minima, find_maxima"]}
{"id": "C20", "title": "Units convert consistently", "statement": "Constructing a distance, velocity, angle or angular rate from a value in one unit and reading it in the same unit gives that value back, and readings in different units are related by the fixed ratio between the units.", "quantifier": "every real value and every pair of supported units", "why_tests_cant": "Continuum of values times all unit pairs.", "anchors": ["skyfield/units.py: Distance, Velocity, Angle, AngleRate, Rate, _Unit"]}
{"id": "C21", "title": "Sexagesimal decomposition is exact and in range", "statement": "Splitting an angle into sign, whole units, minutes and seconds gives whole units >= 0, 0 <= minutes < 60, 0 <= seconds < 60 and the pieces recombine to the angle; the sign is negative exactly for negative angles.", "quantifier": "every rational angle", "why_tests_cant": "Continuum of inputs with boundaries at every minute.", "anchors": ["skyfield/units.py: _sexagesimalize_to_float, Angle.hms, Angle.dms, Angle.signed_hms, Angle.signed_dms, Angle.signed_dms"]}
{"id": "C22", "title": "Printed sexagesimal angles round to nearest and carry", "statement": "Formatting an angle with n decimal places of a second prints minutes and seconds below 60 and a fraction below 10^n, and the printed value is within half a unit of the last place of the angle; a minus sign is printed for negative angles and only for them.", "quantifier": "every rational angle and every number of places", "why_tests_cant": "Carry from 59.999.. through minutes and units for a continuum of inputs and all precisions.", "anchors": ["skyfield/units.py: _sexagesimalize_to_int, _sfmt, Angle.dstr, Angle.hstr"]}
{"id": "C23", "title": "Tuples of sexagesimal values combine with one sign", "statement": "A (units, minutes, seconds) tuple is read as a value whose magnitude is |units| + minutes/60 + seconds/3600 and whose sign is that of the leading value, and decomposing an angle and recombining the tuple returns the angle.", "quantifier": "every rational angle; every tuple length 1 to 3", "why_tests_cant": "Continuum of inputs; sign handling at zero.", "anchors": ["skyfield/units.py: _unsexagesimalize, _interpret_angle, wms, Angle.__init__"]}
{"id": "C24", "title": "Wrong-unit angle access is refused", "statement": "Asking an angle for sexagesimal hours succeeds only if the angle prefers hours (and for degrees only if it prefers degrees) unless a warning override is given; otherwise an error is raised, and the stored value never changes.", "quantifier": "every angle and every sequence of accesses", "why_tests_cant": "History property over all sequences of accesses.", "anchors": ["skyfield/units.py: Angle, WrongUnitError, Angle.hms, Angle.dms, Angle.hstr, Angle.dstr"]}
{"id": "C25", "title": "A download is atomic", "statement": "At every point at which a download could crash or fail, the destination path holds either exactly what it held before or the complete new content; a partially downloaded file never appears under the destination name (unless the backup option is used, when the destination may be briefly absent but its old content is under a backup name).", "quantifier": "every crash point, every sequence of chunks, every starting directory content", "why_tests_cant": "Crash points and partial writes are not reachable by unit tests.", "anchors": ["skyfield/iokit.py: download, _rename_original, Loader.download"]}
{"id": "C26", "title": "Concurrent downloads do not corrupt each other", "statement": "If several processes download the same file at once, in any interleaving of their individual file-system steps, each writes to its own temporary file, and the destination always holds the old content or the complete content written by one of them.", "quantifier": "every number of processes and every interleaving of their steps", "why_tests_cant": "The number of interleavings is unbounded.", "anchors": ["skyfield/iokit.py: download"]}
{"id": "C27", "title": "Backups preserve the original file", "statement": "Downloading with backup=True moves the existing file to a name that did not exist before, so no existing file's content is ever lost, whatever backups already exist.", "quantifier": "every directory content and every sequence of backed-up downloads", "why_tests_cant": "History property: any number of earlier backups.", "anchors": ["skyfield/iokit.py: download, _rename_original"]}
{"id": "C28", "title": "The loader only downloads what is missing, and picks the right parser", "statement": "Loading a name whose file is already present never contacts the network and opens the file as is; an absent one is fetched exactly once from the first matching URL rule; a name with no matching rule raises an error and touches nothing.", "quantifier": "every directory state, every name and every table of URL and parser patterns, every sequence of load calls", "why_tests_cant": "History over arbitrary call sequences and pattern tables.", "anchors": ["skyfield/iokit.py: Loader.__call__, Loader._assure, Loader.build_url, Loader.open, _search"]}
{"id": "C29", "title": "Satellite element files are parsed line-pair by line-pair", "statement": "Parsing a file of satellite elements returns one satellite for each adjacent pair of a '1 ' line followed by a '2 ' line, in file order, with the name from the immediately preceding name line if there is one; no line is used in two satellites and stray lines are skipped.", "quantifier": "every list of lines", "why_tests_cant": "All files, of any length and any disorder.", "anchors": ["skyfield/iokit.py: parse_tle_file, parse_tle, Loader.tle_file"]}
{"id": "C30", "title": "Leap second and Delta-T data reconstruct the published tables", "statement": "Building a timescale from daily UT1-UTC values places a leap second exactly on the days where the value jumps up by more than 0.9 s, with cumulative offsets stepping by one from the ten seconds of 1972, and the resulting daily Delta-T has no jump at leap seconds.", "quantifier": "every table of daily values", "why_tests_cant": "Quantifies over all future tables.", "anchors": ["skyfield/data/iers.py: build_timescale_arrays", "skyfield/io_timescale.py: parse_leap_seconds, _build_legacy_data"]}
{"id": "C31", "title": "Looking up a body in an ephemeris gives its position from the Solar System barycenter", "statement": "For every target reachable through an ephemeris' segments, the vector function returned by indexing starts at the Solar System barycenter, ends at that target, and evaluates to the sum of the segment vectors along the chain; a target with no segment raises an error naming what is missing.", "quantifier": "every finite set of segments forming a forest, every target", "why_tests_cant": "All ephemeris topologies.", "anchors": ["skyfield/jpllib.py: SpiceKernel.__getitem__, SpiceKernel.decode, SpiceKernel.__contains__"]}
{"id": "C32", "title": "Stacked segments choose the right segment for each time", "statement": "When several segments cover the same target, evaluating at a time uses a segment whose date range contains the time, and evaluating an array of times gives at each time what evaluating that time alone gives, for every time covered by at least one segment.", "quantifier": "every list of segments and every (array of) times", "why_tests_cant": "All overlaps and gaps of coverage.", "anchors": ["skyfield/jpllib.py: Stack, SPICESegment"]}
{"id": "C33", "title": "Vector functions form an algebra of displacements", "statement": "Adding a vector from A to B and one from B to C gives a vector from A to C whose value at any time is the sum, subtracting two vectors with a common center gives the displacement between their targets, negation swaps ends, and mismatched ends are refused; position, velocity and center/target are consistent for any expression.", "quantifier": "every expression built from the operators over any segments, at every time", "why_tests_cant": "All expression trees.", "anchors": ["skyfield/vectorlib.py: VectorFunction.__add__, __sub__, __neg__, ReversedVector, VectorSum"]}
{"id": "C34", "title": "Light-time correction converges to a consistent answer or says so", "statement": "When observing a target succeeds, the returned light time and vector satisfy that the vector is the target's position one light time earlier minus the observer's position, with the light time agreeing with distance/c to within the tolerance; otherwise an error is raised. For targets slower than light the correction always converges, and a time observed within an array is observed as it would be alone, to the tolerance.", "quantifier": "every target trajectory slower than a stated fraction of the speed of light", "why_tests_cant": "The trajectory is a parameter; convergence is a fixed point argument.", "anchors": ["skyfield/vectorlib.py: _correct_for_light_travel_time", "skyfield/positionlib.py: Barycentric.observe"]}
{"id": "C35", "title": "Frame and precession rotations preserve lengths and angles", "statement": "Every rotation matrix used to change frame (axis rotations, precession, nutation, polar motion, ecliptic, horizon) preserves dot products, hence vector lengths and the angles between vectors, and its transpose undoes it.  This is exact for axis rotations, precession, nutation, polar motion, horizons and planet frames; where the fixed ICRS-to-J2000 matrix or a literal 17-digit matrix takes part it holds to 2e-14 relative.", "quantifier": "every angle (every date), every pair of vectors", "why_tests_cant": "Continuum of dates.", "anchors": ["skyfield/functions.py: rot_x, rot_y, rot_z, mxm, mxv", "skyfield/precessionlib.py: compute_precession", "skyfield/nutationlib.py: build_nutation_matrix", "skyfield/framelib.py"]}
{"id": "C36", "title": "Spherical coordinates convert back and forth", "statement": "Converting a non-zero vector to distance, latitude and longitude gives distance > 0, latitude within a quarter turn, longitude in [0, one turn) and converting back gives the same vector; converting in-range spherical coordinates to a vector and back gives the same coordinates.", "quantifier": "every non-zero real vector; all in-range coordinates", "why_tests_cant": "Continuum with special points at the poles and the meridian.", "anchors": ["skyfield/functions.py: to_spherical, from_spherical", "skyfield/positionlib.py: ICRF.radec, position_of_radec"]}
{"id": "C37", "title": "The angle between two vectors is the true angle", "statement": "separation_from returns the angle whose cosine is the normalized dot product, between 0 and a half turn, symmetric in its arguments and unaffected by the vectors' lengths.", "quantifier": "all pairs of non-zero real vectors", "why_tests_cant": "Uses a half-angle formula whose equality with the definition is a theorem of real analysis.", "anchors": ["skyfield/functions.py: angle_between", "skyfield/positionlib.py: ICRF.separation_from"]}
{"id": "C38", "title": "Building a position from frame vectors and reading it in that frame is the identity", "statement": "A position created from a frame's x,y,z and velocity gives back those vectors when read in the same frame at the same time, also for rotating frames, and the distance is the same in all frames.", "quantifier": "every time, every frame whose rotation is orthogonal, every position and velocity", "why_tests_cant": "All frames, all vectors.", "anchors": ["skyfield/positionlib.py: ICRF.from_time_and_frame_vectors, ICRF.frame_xyz, ICRF.frame_xyz_and_velocity"]}
{"id": "C39", "title": "Line and sphere intersections lie on both", "statement": "The two distances returned for a line and a sphere are exactly the points of the line on the sphere, nearest first; 'not a number' is returned exactly when the line misses.", "quantifier": "all lines, centers and radii", "why_tests_cant": "Continuum.", "anchors": ["skyfield/geometry.py: intersect_line_and_sphere"]}
{"id": "C40", "title": "Line and ellipsoid intersection is the first visible surface point", "statement": "The point returned for a line from a start point in a direction lies on the ellipsoid and on the line; if the start is outside it is the nearest such point ahead; if there is none, nan is returned.", "quantifier": "all starts, directions and positive radii", "why_tests_cant": "Continuum.", "anchors": ["skyfield/geometry.py: line_and_ellipsoid_intersection"]}
{"id": "C41", "title": "Sunlit and behind-Earth tests mean what they say", "statement": "A position is reported as not sunlit only if the segment from it to the Sun passes through the Earth's sphere, and as behind Earth only if the segment from the observer to the target does, and conversely.", "quantifier": "every geometry of observer, target, Sun and Earth radius", "why_tests_cant": "Continuum.", "anchors": ["skyfield/positionlib.py: ICRF.is_sunlit, ICRF.is_behind_earth"]}
{"id": "C42", "title": "Geographic positions and their latitude, longitude and height agree", "statement": "The position built from latitude, longitude and height is at exactly that height along the ellipsoid's normal of that latitude; for it the latitude search's exact answer is a fixed point and the recovered height formula returns the height.", "quantifier": "every latitude in (-90, 90) degrees, longitude, height above minus the Earth's smallest curvature radius, and every flattening", "why_tests_cant": "Continuum, with ellipsoid parameters as variables.", "anchors": ["skyfield/toposlib.py: Geoid.latlon, Geoid.latlon_of, Geoid.height_of, _compute_latitude"]}
{"id": "C43", "title": "Relativistic corrections are well behaved", "statement": "Aberration adjusts the apparent direction in the plane of the direction and the observer's velocity and vanishes with the velocity; gravitational deflection shifts a position by a vector perpendicular to it that vanishes for zero mass.", "quantifier": "all positions and velocities", "why_tests_cant": "Continuum.", "anchors": ["skyfield/relativity.py: add_aberration, _compute_deflection, add_deflection"]}
{"id": "C44", "title": "Orbital elements produce the orbit they describe", "statement": "The state vector built from orbital elements has radius p/(1+e cos v), angular momentum of size sqrt(mu p), orbital energy mu(e^2-1)/(2p), the inclination given, and moves in the plane with the given node.", "quantifier": "all elements with p > 0, e >= 0 and true anomaly on the orbit", "why_tests_cant": "Continuum of elements of all conic types.", "anchors": ["skyfield/keplerlib.py: ele_to_vec"]}
{"id": "C45", "title": "Two-body propagation keeps the orbit", "statement": "Propagating a state under two-body motion returns the starting state for zero elapsed time, preserves angular momentum, and for any elapsed time gives the state of a body obeying Newton's inverse square law, with the velocity being the derivative of the position; the equation solved for it has exactly one solution and the search finds it.", "quantifier": "all starting states that are not radial, positive gravitational parameters and elapsed times, elliptic, parabolic or hyperbolic", "why_tests_cant": "Continuum; conservation is an identity of Stumpff functions and the differential equation is a statement about all times.", "anchors": ["skyfield/keplerlib.py: propagate, stumpff"]}
{"id": "C46", "title": "Phase and illumination are bounded and consistent", "statement": "The illuminated fraction lies between 0 and 1, is 1 exactly at full phase and 0 exactly at new phase, decreases with phase angle, and is the lit share of the area of the disc of a spherical target.", "quantifier": "every phase angle from 0 to a half turn", "why_tests_cant": "Continuum.", "anchors": ["skyfield/positionlib.py: ICRF.fraction_illuminated, ICRF.phase_angle"]}
{"id": "C47", "title": "Almanac state codes are in range and ordered", "statement": "The season, moon phase, twilight, and similar state functions return only their documented codes for every input angle, with twilight codes non-decreasing in Sun altitude, and season and phase codes naming the quadrant that contains the angle.", "quantifier": "every angle/altitude", "why_tests_cant": "Continuum with boundaries.", "anchors": ["skyfield/almanac.py: seasons, moon_phases, dark_twilight_day, oppositions_conjunctions, meridian_transits, risings_and_settings", "skyfield/almanac_east_asia.py: solar_terms"]}
{"id": "C48", "title": "Lunar eclipse classification is consistent with its magnitudes", "statement": "Every reported eclipse has positive penumbral magnitude; it is coded partial or total exactly when its umbral magnitude is positive and total exactly when it exceeds 1; the codes are 0, 1 or 2 and penumbral magnitude exceeds umbral magnitude. No eclipse is missed or underrated: if any point of the Moon is in the geometric penumbra of the solid Earth an eclipse is reported, if any point is in the umbra at least a partial one, if all are a total one. None is invented: a reported eclipse is one in the shadow of an Earth 1% larger (1.6% for total ones). The moment reported is that of closest approach up to aberration.", "quantifier": "all geometries with positive radii; for the geometric shadow, all positions of the Sun and Moon at distances of 140 to 160 million and 350 to 410 thousand kilometers", "why_tests_cant": "Continuum; a point is in the umbra if each of infinitely many points of the Sun is hidden.", "anchors": ["skyfield/eclipselib.py: lunar_eclipses"]}
{"id": "C49", "title": "Angles of Earth rotation and hour angle are normalized", "statement": "The Earth rotation angle lies in [0, 1) turn, sidereal times in [0, 24) hours, hour angles within half a turn of zero, and each differs from the unnormalized quantity by a whole number of turns.", "quantifier": "every date", "why_tests_cant": "Continuum.", "anchors": ["skyfield/earthlib.py: earth_rotation_angle, sidereal_time", "skyfield/timelib.py: Time.gmst, Time.gast", "skyfield/positionlib.py: ICRF.hadec"]}
{"id": "C50", "title": "Constellation lookup is total and local", "statement": "Every direction maps to the constellation of the grid cell that contains its precessed coordinates: the cell found is the unique one whose boundaries enclose the coordinates, for any sorted boundary lists. With the tables that come with Skyfield every direction has an answer, every one of the 88 constellations is the answer somewhere, and load_constellation_names() gives each answer one full name, from which the abbreviation can be found again.", "quantifier": "every coordinate pair and every pair of sorted boundary lists", "why_tests_cant": "All tables, all positions incl. on the boundaries.", "anchors": ["skyfield/constellationlib.py: load_constellation_map", "skyfield/constellationlib.py: load_constellation_names"]}
{"id": "C51", "title": "Cached attributes always equal a fresh computation", "statement": "Any sequence of reads of a time's derived attributes returns for each attribute the value the underlying computation would return, computed at most once per object.", "quantifier": "every sequence of attribute reads on any number of objects", "why_tests_cant": "History property.", "anchors": ["skyfield/descriptorlib.py: reify", "skyfield/timelib.py: Time"]}
{"id": "C52", "title": "Slicing an array of times commutes with everything computed per time", "statement": "Indexing or slicing an array of times and then reading any per-time quantity equals reading the quantity and then indexing it.", "quantifier": "every index and every per-time quantity", "why_tests_cant": "All array shapes and indexes.", "anchors": ["skyfield/timelib.py: Time.__getitem__, Time.__len__, Time.__iter__"]}
{"id": "C53", "title": "Planetary constants text is read as written", "statement": "Loading assignments from text kernels gives each name its last '=' value with every later '+=' value list appended in order.", "quantifier": "every sequence of assignments", "why_tests_cant": "History property over arbitrary files.", "anchors": ["skyfield/data/text_pck.py: load, parse", "skyfield/planetarylib.py: PlanetaryConstants.read_text"]}
{"id": "C54", "title": "Satellite epoch years follow the two-digit year rule", "statement": "A two-digit epoch year maps to the unique full year in 1957..2056 congruent to it modulo 100, and satellites get distinct integer target codes for distinct catalogue numbers.", "quantifier": "every two-digit year and every catalogue number", "why_tests_cant": "Injectivity is a statement over all pairs.", "anchors": ["skyfield/sgp4lib.py: EarthSatellite.__init__, EarthSatellite._setup"]}
{"id": "C55", "title": "Stereographic charts are conformal maps centered on the target", "statement": "The chart projection sends the chosen center to the origin and every other direction at angular distance a from it to radius tan(a/2).", "quantifier": "every center not at a pole, every direction other than the antipode", "why_tests_cant": "Continuum; formula is machine-derived.", "anchors": ["skyfield/projections.py: build_stereographic_projection"]}
{"id": "C56", "title": "The maxima search terminates", "statement": "With at least three subdivisions and a positive epsilon find_maxima and find_minima stop with a result on every function, after a number of rounds that depends only on the interval, step, epsilon and subdivision count.", "quantifier": "every real-valued function, interval, positive step and epsilon, num >= 3", "why_tests_cant": "Termination is not observable by testing; the loop's exit test looks only at the first pair of samples of a data-dependent list.", "anchors": ["skyfield/searchlib.py: find_maxima, _choose_brackets, _remove_adjacent_duplicates"]}
{"id": "C57", "title": "Reported angle and range rates are the true time derivatives", "statement": "For every moving object the range rate, latitude rate and longitude rate reported together with a frame's latitude, longitude and distance are the time derivatives of those quantities.", "quantifier": "every differentiable motion and every time at which the object is off the frame's polar axis", "why_tests_cant": "A derivative of an arbitrary motion; tests compare a few finite differences.", "anchors": ["skyfield/functions.py: _to_spherical_and_rates", "skyfield/positionlib.py: frame_latlon_and_rates"]}
{"id": "C58", "title": "Mean anomaly and comet elements give the place on the orbit", "statement": "For an elliptical orbit the eccentric anomaly solves Kepler's equation to the promised tolerance and the true anomaly computed from it lies in the same half of the orbit; a comet given by perihelion distance and time is at the perihelion distance at that time.", "quantifier": "every eccentricity below 1 and every mean anomaly", "why_tests_cant": "Convergence of an iteration over a continuum of inputs.", "anchors": ["skyfield/keplerlib.py: eccentric_anomaly, true_anomaly_closed, true_anomaly_hyperbolic, true_anomaly_parabolic, _KeplerOrbit._from_mean_anomaly", "skyfield/data/mpc.py: comet_orbit, _comet_orbits"]}
{"id": "C59", "title": "Risings and settings are found where the body meets the horizon", "statement": "The hour angles used to find risings and settings are exactly those at which the body stands at the horizon altitude, climbing for risings and sinking for settings; if it never gets there the answer is the transit nearest the horizon. Each passage between two samples is found once, between those samples, and the final interpolation is the crossing in the right direction of the parabola through the last two altitudes.", "quantifier": "every latitude and declination short of the poles, every horizon altitude and every sequence of samples less than one turn of the sky apart", "why_tests_cant": "Continuum; sampling alignment.", "anchors": ["skyfield/almanac.py: find_risings, find_settings, find_transits, _find, _setting_hour_angle, _rising_hour_angle, _intersection, _q"]}
{"id": "C60", "title": "Satellite coordinates turn with the Earth consistently", "statement": "The sidereal angle between the satellite propagator's frame and the rotating Earth follows the 1982 definition whatever way the date is split in two, its reported rate is its derivative, and the Earth-fixed velocity returned is the derivative of the Earth-fixed position returned, with lengths preserved. Reading a satellite's celestial position and velocity in the Earth-fixed frame agrees with asking for them directly, and distance and speed are those the propagator gave.", "quantifier": "every date, every differentiable satellite motion, every pole offset, every answer of the propagator", "why_tests_cant": "A derivative identity over every motion; tests check one satellite at one time.", "anchors": ["skyfield/sgp4lib.py: theta_GMST1982, TEME_to_ITRF, EarthSatellite._at, EarthSatellite.ITRF_position_velocity_error"]}
{"id": "C61", "title": "Refraction ends and solves the refraction equation", "statement": "Asked for the apparent altitude of a body, the refraction iteration ends for every altitude and every realistic air density, never lowers the body, leaves altitudes outside the formula's range alone, and its answer a satisfies a = true altitude + refraction(a) to 3e-5 degrees.", "quantifier": "every real altitude, every temperature and pressure with density up to about 1.4 times standard", "why_tests_cant": "Termination and convergence over a continuum of altitudes, with a discontinuity at 89.9 degrees.", "anchors": ["skyfield/earthlib.py: refraction, refract", "skyfield/toposlib.py: GeographicPosition.refract"]}
{"id": "C62", "title": "Orbital elements and state vectors describe each other exactly", "statement": "The osculating elements reported for a position and velocity lie in their documented ranges, and turning them back into a position and velocity gives the state they came from; a state built from elements reports those elements again. The argument of latitude, the true longitude and the longitude of periapsis are the angles, measured along the orbit, that their names say. The GM used is the one given, or the tabulated one of the center (plus the orbiting body's unless the center is a barycenter), and a GM that is not positive is refused.", "quantifier": "every position and velocity with nonzero angular momentum, every positive GM, any inclination and orientation, elliptic, parabolic and hyperbolic orbits, exactly circular or of eccentricity above 1e-15", "why_tests_cant": "Round trip over a six-dimensional continuum with branches for equatorial, circular and retrograde orbits.", "anchors": ["skyfield/elementslib.py: OsculatingElements, eccentricity_vector, node_vector, inclination, longitude_of_ascending_node, argument_of_periapsis, true_anomaly", "skyfield/keplerlib.py: ele_to_vec"]}
{"id": "C63", "title": "Reported orbit sizes, periods and anomalies belong to the same orbit", "statement": "The semi-major axis obeys the vis-viva equation, the period obeys Kepler's third law, no point of the orbit is closer than the periapsis distance or farther than the apoapsis distance, and on an ellipse the eccentric and mean anomalies locate the body on the ellipse with the reported semi-axes.", "quantifier": "every position and velocity with nonzero angular momentum and every positive GM", "why_tests_cant": "Algebraic identities over a continuum of orbits.", "anchors": ["skyfield/elementslib.py: semi_major_axis, semi_minor_axis, periapsis_distance, apoapsis_distance, period, mean_motion, eccentric_anomaly, mean_anomaly"]}
{"id": "C64", "title": "Elements taken along an orbit agree with each other through time", "statement": "Along any motion under an inverse-square attraction the reported size, shape and orientation elements never change, the reported mean anomaly and mean longitude advance at the reported mean motion, and at the reported time of periapsis the body is at the reported periapsis distance, closer than at any other time.", "quantifier": "every two-body motion with nonzero angular momentum and every pair of times", "why_tests_cant": "Quantifies over all motions and all times; tests sample a few states from an ephemeris.", "anchors": ["skyfield/elementslib.py: OsculatingElements, time_since_periapsis, mean_anomaly, eccentric_anomaly, mean_motion"]}
{"id": "C65", "title": "Direct searches report every passage exactly once", "statement": "For a target whose hour angle gains less than a turn on the wanted one in any 0.8 days, find_transits, find_risings and find_settings report exactly one time for each passage of the target through the meridian, or through the hour angle of the horizon, from the start time on and before the end time.", "quantifier": "every motion of the sky meeting the speed condition, every pair of start and end times", "why_tests_cant": "Quantifies over all sampling alignments and all motions; a test uses one target and a few dates.", "anchors": ["skyfield/almanac.py: find_transits, find_risings, find_settings, _find"]}
{"id": "C66", "title": "Directly found risings, settings and transits are exact", "statement": "For a star under a uniformly turning sky the reported risings and settings are precisely the moments at which it stands at the horizon's altitude while climbing or sinking, flagged as true; a star that never crosses the horizon gets its culminations, flagged as false; transits are reported a microsecond late. The final correction never moves a time by more than twice the last step. Whatever the target's motion, an event is flagged false exactly if the hour angle aimed at is a culmination and the correction ran into its limit; it is flagged true whenever the circle of the target's declination meets the horizon.", "quantifier": "every latitude and declination off the poles, every horizon, every rate of rotation below a turn in 0.8 days, every start and end", "why_tests_cant": "Continuum of geometries, with special cases where the track grazes the horizon.", "anchors": ["skyfield/almanac.py: find_transits, find_risings, find_settings, _find, _intersection, build_horizon_function"]}
{"id": "C67", "title": "Satellite passes are reported completely and in order", "statement": "The events find_events reports for a satellite are in time order; between two events that rise and set the satellite culminates; each reported rising and setting is a change of side of the altitude line between two moments at most half a second apart, and each culmination satisfies find_maxima's promise; every pass whose highest point the culmination search sees above the line is listed with a rising before and a setting after it (unless the window cuts it); the search samples at least five times an orbit and always ends.", "quantifier": "every altitude function, every threshold, every window and every orbital rate", "why_tests_cant": "Quantifies over every altitude curve and alignment of the samples; a test has a handful of satellites.", "anchors": ["skyfield/sgp4lib.py: EarthSatellite.find_events"]}
{"id": "C68", "title": "The pass finder's shortcut does not change altitudes", "statement": "find_events computes altitudes after overwriting the sidereal time with zero and the precession-nutation matrix with the identity. The altitude, azimuth and distance it so obtains are those of the satellite in Earth-fixed coordinates, and agree with the altitude, azimuth and distance the public API gives for the same time: exactly if that matrix is a rotation, and to a relative 2e-14 in distance and 4e-14 in sine of altitude with the matrix the code uses.", "quantifier": "every time, satellite position, place and polar motion", "why_tests_cant": "A cancellation of matrices must hold for all times and places; tests compare a few printed digits.", "anchors": ["skyfield/sgp4lib.py: EarthSatellite.find_events, cheat, TEME, EarthSatellite._at", "skyfield/toposlib.py: GeographicPosition.rotation_at, ITRSPosition._at"]}
{"id": "C69", "title": "Stars stand and move as their catalogue entry says", "statement": "A star observed from the barycenter at its epoch has its catalogue right ascension and declination, at the distance where one au subtends its parallax (a gigaparsec when the parallax is not positive, or unknown in a table). Its declination, its right ascension times the cosine of the declination, and its distance then change at the catalogue rates times the Doppler factor. Seen from anywhere at any time it stands on a straight line traversed at constant velocity, at the moment corrected for the light time between barycenter and observer.", "quantifier": "every catalogue entry off the poles, every observer, every time", "why_tests_cant": "Continuum of entries; the rates are derivatives, which no test of values settles.", "anchors": ["skyfield/starlib.py: Star, Star._compute_vectors, Star._observe_from_bcrs, Star.from_dataframe"]}
{"id": "C70", "title": "Planetary magnitudes obey the laws of light", "statement": "planetary_magnitude refuses exactly the targets that are not planets; dims with the square of both distances; is the same with Sun and observer exchanged; uses the angle at the planet and the latitudes under Sun and observer; is nan exactly for Saturn beyond 6.5 degrees of phase or 27 degrees of ring opening and for Neptune beyond 1.9 degrees before 2000; and its pieces join to within 0.01 magnitude for Venus, Mars and Jupiter.", "quantifier": "every target, every geometry of Sun, planet and observer, every year", "why_tests_cant": "Continuum of geometries; that a logarithm's argument stays positive is a claim about all phase angles.", "anchors": ["skyfield/magnitudelib.py: planetary_magnitude and the eight planet functions"]}
{"id": "C71", "title": "Position angles point from north through east", "statement": "position_angle_of two positions given by right ascension and declination is the angle in [0, 360) at the first, from north towards east, to the second; of two given by altitude and azimuth, from straight up towards the left; the order of the angles in a pair does not matter, and turning the sky changes nothing.", "quantifier": "every pair of positions whose second is not a pole", "why_tests_cant": "Continuum of positions and all quadrants.", "anchors": ["skyfield/trigonometry.py: position_angle_of"]}
{"id": "C72", "title": "Position objects are displacements between the bodies they name", "statement": "Every position names its center and its target, and its vectors are the target's place and velocity as seen from the center. Two positions subtract exactly if they share their center, and the result goes from the second's target to the first's; (a - c) - (b - c) is a - b; exchanging the two reverses the result; negating twice changes nothing; distances obey the triangle inequality; the class of a result (barycentric, geocentric) is what its center says; taking elements of arrays commutes with subtraction; observing and then asking for the apparent place keeps ends, time and observer, and altitude and azimuth are measured with the observer's own orientation at that time.", "quantifier": "all positions, bodies, times and array lengths, and all chains of subtraction, negation, indexing and observation", "why_tests_cant": "Any chain of operations can be built; tests sample a few pairs of bodies and no test checks the ends and classes of derived positions.", "anchors": ["skyfield/positionlib.py: ICRF.__init__, __sub__, __neg__, __getitem__, distance, speed, light_time, build_position, SSB", "skyfield/positionlib.py: Barycentric.observe, Astrometric.apparent, Astrometric.altaz, _to_altaz, _altaz_rotation", "skyfield/vectorlib.py: VectorFunction.at"]}
{"id": "C73", "title": "Frames and places of other bodies are those the loaded kernels define", "statement": "After reading any number of text and binary kernels, the frame built for a name or number has the center, base segment and fixed rotation that the kernels define: the last segment read for a frame is the one used; angles and axes are applied in the order and sense of the SPICE definition, matrices are listed by columns; anything missing or unsupported raises instead of giving another frame. A place built at a latitude, longitude and elevation is at the body's radius plus elevation from its center at all times, straight up from it is altitude 90 degrees, north is azimuth 0 and east azimuth 90.", "quantifier": "all sets of kernel constants, all lists of segments and files, all angles, axes and matrices, all latitudes, longitudes, elevations and times", "why_tests_cant": "Tests load two lunar kernels; other bodies, definitions by matrix, reloaded files and missing constants are never tried.", "anchors": ["skyfield/planetarylib.py: PlanetaryConstants.read_binary, build_frame, build_frame_named, build_latlon_degrees, _get_assignment", "skyfield/planetarylib.py: Frame.rotation_at, PlanetTopos"]}
{"id": "C74", "title": "Nutation is bounded, continuous, and loses only what is cut", "statement": "For every date, any number of terms and any table of argument multipliers, the nutation angles stay below the sum of the amplitudes in the bundled tables (19.47 and 10.09 arcseconds plus a drift per century); asking for fewer terms changes them by at most the amplitudes left out; reducing the arguments to less than a turn changes nothing, so the angles vary continuously; the short IAU 2000B series differs from the full one by a bounded amount plus its fixed bias; apparent and mean sidereal time differ by at most 1.3 seconds plus drift; the mean obliquity decreases for fifty centuries either side of J2000. Asking for one polynomial term gives all five.", "quantifier": "all dates, all counts of terms, all integer multiplier tables", "why_tests_cant": "a series of 1365 terms can be tested at a few dates only; a bound on its size or on the effect of truncation is a statement about all dates", "anchors": ["skyfield/nutationlib.py:iau2000a", "skyfield/nutationlib.py:iau2000b", "skyfield/nutationlib.py:fundamental_arguments", "skyfield/nutationlib.py:equation_of_the_equinoxes_complimentary_terms", "skyfield/nutationlib.py:earth_tilt", "skyfield/timelib.py:Time.gast"]}
{"id": "C75", "title": "The frames of date point where they should", "statement": "For every date and every direction: nutation moves the equinox along the ecliptic by delta psi and changes the obliquity by delta epsilon, leaving ecliptic latitudes alone; precession does what the published angles say; ecliptic coordinates of date are those of an ecliptic tilted by the true obliquity; longitudes on the turning Earth are right ascension less sidereal time, and come out the same through CIRS, TEME and the true equator; polar motion puts the pole x towards Greenwich and y towards 90 degrees west; the rotation rate used for velocities is that of the Earth rotation angle to 2.1e-8.", "quantifier": "all dates, all directions, all values of nutation angles, sidereal time and polar motion", "why_tests_cant": "a test compares matrices at a few dates; a sign error in a small angle hides below the tolerance or in the dates chosen", "anchors": ["skyfield/framelib.py:ecliptic_frame", "skyfield/framelib.py:itrs", "skyfield/framelib.py:tirs", "skyfield/precessionlib.py:compute_precession", "skyfield/nutationlib.py:build_nutation_matrix", "skyfield/timelib.py:Time.polar_motion_matrix", "skyfield/timelib.py:Time.C", "skyfield/sgp4lib.py:TEME"]}
{"id": "C76", "title": "Orbits built from comet and minor planet catalogue rows are the catalogued orbits", "statement": "A comet built from a catalogue row is, on the row's perihelion date, at the row's perihelion distance in the direction its angles give, moving at right angles to it, and is never closer; a minor planet stands at its epoch where Kepler's equation puts it and passes perihelion M/n before the epoch; between epochs each follows Newton's law with exactly the given GM in km and seconds; the orbit reports back the elements it was built from.", "quantifier": "all rows (eccentricities, angles, distances, dates), all GM, all times", "why_tests_cant": "a test follows a few named objects; unit conversions, frame rotation and epochs must combine correctly for every row and time", "anchors": ["skyfield/data/mpc.py:comet_orbit", "skyfield/data/mpc.py:mpcorb_orbit", "skyfield/keplerlib.py:_KeplerOrbit._from_periapsis", "skyfield/keplerlib.py:_KeplerOrbit._from_mean_anomaly", "skyfield/keplerlib.py:_KeplerOrbit._from_true_anomaly", "skyfield/keplerlib.py:_KeplerOrbit._at", "skyfield/keplerlib.py:_KeplerOrbit.elements_at_epoch"]}
{"id": "C77", "title": "Packed dates and designations unpack to what was packed", "statement": "The packed epoch of a minor planet row is read as the start of the date that was packed, different dates never as the same epoch; a packed comet designation unpacks to the written designation, and unpacking a written one changes nothing.", "quantifier": "all dates of the years 0 to 3599, all designations with up to 99 comets in a half month", "why_tests_cant": "there are over a million dates and designations; tests try one or two", "anchors": ["skyfield/data/mpc.py:mpcorb_orbit", "skyfield/data/mpc.py:unpack"]}
{"id": "C78", "title": "Python datetimes in any time zone name the same moments as Skyfield times", "statement": "An aware datetime gives the time of the moment it names, so datetimes of different zones naming one moment give the same time, and the elapsed time between two datetimes is the difference of their UTC readings plus the leap seconds between; naive datetimes and moments outside years 1 to 9999 are refused; a datetime comes back unchanged in its own zone; a time turned into a datetime of any zone and back moves by at most half a microsecond, or is one second early in a leap second; lists convert elementwise, a date is its UTC midnight.", "quantifier": "all datetimes, all zones (any offset as a function of UTC, with or without pytz normalize), all times, all leap second tables", "why_tests_cant": "tests try a handful of datetimes in one or two zones; zones change their offsets at arbitrary moments, and the boundary cases (leap seconds, first and last year, calendar cutoff) are rarely met", "anchors": ["skyfield/timelib.py:Timescale.from_datetime", "skyfield/timelib.py:Timescale.from_datetimes", "skyfield/timelib.py:Timescale.utc", "skyfield/timelib.py:Time.astimezone_and_leap_second", "skyfield/timelib.py:Time.utc_datetime_and_leap_second", "skyfield/timelib.py:_datetime_to_utc_tuple", "skyfield/timelib.py:_upgrade_datetime_exception"]}
{"id": "C79", "title": "Sky coordinates, rates and separations agree with one another", "statement": "frame_latlon_and_rates() reports the latitude, longitude and distance of frame_latlon() together with their true time derivatives (altitude and azimuth rates in the horizon frame included). separation_from() equals the spherical law of cosines on the coordinates read in any orthogonal frame, satisfies the triangle inequality, is symmetric and matches arrays position by position. cirs_radec() and radec() of the same epoch agree on distance and declination and differ in right ascension by Earth rotation angle minus apparent sidereal time, so hour angles from hadec() are Earth rotation angle plus longitude minus CIRS right ascension. The epoch argument accepts a Time, a float or 'date' and refuses the rest; the deprecated ecliptic and ITRF functions agree with the frame methods.", "quantifier": "all positions, velocities, smooth motions, frames, observers, epochs and arrays", "why_tests_cant": "the derivative and the identities between methods hold at every point of a continuum of positions and times; a test compares finitely many", "anchors": ["skyfield/positionlib.py:ICRF.frame_latlon_and_rates", "skyfield/positionlib.py:ICRF.separation_from", "skyfield/positionlib.py:ICRF.cirs_radec", "skyfield/positionlib.py:ICRF.radec", "skyfield/positionlib.py:_Fake", "skyfield/positionlib.py:ITRF_to_GCRS2", "skyfield/functions.py:angle_between"]}
{"id": "C80", "title": "Polar motion data are read, dated, interpolated and applied as published", "statement": "Every complete line of finals2000A.all is read at its published columns and incomplete lines are passed over; the installed table is dated in TT from its UTC modified Julian dates; the polar angles used at any time are the table's on its dates, linear between them, constant outside, and never beyond the table's extremes; and Earth-fixed coordinates move by no more than those angles.", "quantifier": "all files, tables, times and positions", "why_tests_cant": "files are arbitrarily long and times form a continuum; a test reads one sample file and a few dates", "anchors": ["skyfield/data/iers.py:parse_x_y_dut1_from_finals_all", "skyfield/data/iers.py:install_polar_motion_table", "skyfield/timelib.py:Time.polar_motion_angles", "skyfield/timelib.py:Time.polar_motion_matrix", "skyfield/framelib.py:itrs"]}
{"id": "C81", "title": "Rounding never costs a time its precision", "statement": "With every operation rounded to the nearest 53-bit float: a time made from a UTC reading is within 5e-11 seconds of the instant it denotes in TAI and TT; readings in whole seconds come back exactly and all others within 1e-11 seconds; comparison is never reversed by rounding, differences of nearby times and shifts by days or timedeltas are good to 1e-10 seconds, and calendar fields stay in range; while a Julian date read as a single float is only good to 20 microseconds.", "quantifier": "all dates within 10^9 days of Julian date 0, all leap second tables of moderate size, all roundings to nearest", "why_tests_cant": "rounding errors depend on the exact bits of every operand; a test tries a few dates", "anchors": ["skyfield/timelib.py:Timescale._utc", "skyfield/timelib.py:Time._utc_tuple", "skyfield/timelib.py:Time._utc_seconds", "skyfield/timelib.py:Time._tai_seconds", "skyfield/timelib.py:Time.__sub__", "skyfield/timelib.py:Time.__lt__", "skyfield/timelib.py:Time.__eq__", "skyfield/timelib.py:Time.__add__", "skyfield/timelib.py:Time.__hash__", "skyfield/timelib.py:calendar_tuple", "skyfield/timelib.py:Timescale._strftime"]}
{"id": "C82", "title": "Searches end, and find their events, in floating point too", "statement": "With every operation of find_discrete rounded to nearest double precision, a search between two times before the year 6770, with num at least 3 and an epsilon of at least 0.95 ms (the default is 1 ms), ends after at most 55 rounds. Every event reported lies between the two times up to a hundredth of a second, the function has the reported value there and another value at most epsilon before (or, because of rounding, 0.7 ms after). If the function keeps one value for a spell as long as step_days and later another value for such a spell, an event is reported from the first spell to the second. Finding: with an epsilon below 2^-31 days (40 microseconds) a search for a single change never ends.", "quantifier": "every rounding to nearest, every pair of times, every function, step, epsilon and num", "why_tests_cant": "Whether a loop over rounded dates ends depends on how each of its products and sums rounds, for every date; a test tries a handful of searches.", "anchors": ["skyfield/searchlib.py:find_discrete", "skyfield/searchlib.py:_find_discrete"]}
{"id": "C83", "title": "Every way of naming a place on Earth names the same place", "statement": "Every position from 60 km under the surface upward has exactly one latitude and height. geographic_position_of() of any such position is a place that is at that position at that time and whose latitude (-90\u00b0 to 90\u00b0), longitude (-180\u00b0 up to 180\u00b0) and elevation lead back to it to within 3.2 cm, at any distance; a place made by latlon() comes back as itself to the same accuracy; subpoint_of() is on the ellipsoid, directly below. All of these refuse positions that are not geocentric. Topos() gives the same place as iers2010.latlon() whether its coordinates are degrees, angles, floats, tuples or text with a direction, and refuses anything else; the old terra() and reverse_terra() agree with it and undo each other off the poles. Finding: on the axis reverse_terra() reports an elevation of minus the Earth's radius.", "quantifier": "all positions, times, Earth-like ellipsoids, coordinates, elevations, texts and iteration counts", "why_tests_cant": "Accuracy has to hold over a continuum of positions from the ground to infinity, poles and equator included; a test tries a few.", "anchors": ["skyfield/toposlib.py:Geoid.geographic_position_of", "skyfield/toposlib.py:Geoid.subpoint_of", "skyfield/toposlib.py:Geoid.latlon", "skyfield/toposlib.py:Topos", "skyfield/units.py:_ltude", "skyfield/positionlib.py:Geocentric.subpoint", "skyfield/earthlib.py:terra", "skyfield/earthlib.py:reverse_terra"]}
{"id": "C84", "title": "Angles keep their digits when typed, split, converted and printed in floating point", "statement": "With every operation rounded to the nearest 53-bit float: an angle typed as a tuple of units, minutes and decimal seconds is printed by hstr() or dstr() with exactly the digits typed, for up to 2^49 units of the last place; the text printed for any float spells it to within half a unit of the last place plus a relative 4\u00b72^-53, with minutes and seconds below 60 and never the wrong sign, and printing keeps the order of angles; hms() and dms() give whole minutes below 60 and seconds below 60, recombine to the value up to a relative 2^-53 and read back up to 5\u00b72^-53; degrees, hours and radians convert into each other up to 5\u00b72^-53.", "quantifier": "all angles, numbers of places, formats, signs and roundings to nearest", "why_tests_cant": "whether a digit survives depends on how each product and sum rounds, for every angle; a test tries a few", "anchors": ["skyfield/units.py:_sexagesimalize_to_int", "skyfield/units.py:_sexagesimalize_to_float", "skyfield/units.py:_unsexagesimalize", "skyfield/units.py:wms", "skyfield/units.py:_sfmt", "skyfield/units.py:Angle.hours", "skyfield/units.py:Angle.degrees", "skyfield/units.py:Angle.__init__"]}
{"id": "C85", "title": "Threads may share Skyfield objects and load leap seconds at once", "statement": "When any number of threads read the cached attributes of one object, such as a Time, every value any of them gets is the freshly computed one, the object never holds another value, no thread computes an attribute twice, and no thread waits for another. When several threads read leap second files, each date is parsed as in the C locale whatever the locale of the process and whether or not other lines can be parsed, at most one thread is inside the locked section, every thread finishes under any fair scheduler, and whenever no thread is inside, the locale of the process is what it was.", "quantifier": "every number of threads, every list of attributes per thread, every interleaving of their steps, every locale and every line", "why_tests_cant": "The number of interleavings is exponential and the scheduler cannot be driven from a test.", "anchors": ["skyfield/descriptorlib.py: reify", "skyfield/timelib.py: Time", "skyfield/io_timescale.py: parse_leap_seconds"]}
{"id": "C86", "title": "Orbits computed for an array are the orbits computed one by one", "statement": "The osculating elements of an array of states are, entry for entry, the elements of each state by itself, whatever mixture of ellipses, parabolas and hyperbolas the array holds; and propagating an orbit to an array of times gives for each time what propagating to it alone gives, with an error exactly if one of the times alone gives an error.", "quantifier": "every list of states and every list of times of any length, every orbit with nonzero angular momentum", "why_tests_cant": "The array code takes other branches (masks filled in several passes, a shared bisection loop) than the scalar code, and must agree for every length and mixture.", "anchors": ["skyfield/elementslib.py: OsculatingElements, argument_of_periapsis, true_anomaly, eccentric_anomaly, mean_anomaly, time_since_periapsis, apoapsis_distance, period, semi_major_axis, semi_minor_axis, node_vector", "skyfield/keplerlib.py: propagate, stumpff"]}
{"id": "C87", "title": "Normalized angles and state codes stay in range in floating point", "statement": "With every operation rounded to the nearest double: right ascensions, longitudes, sidereal times, the Earth rotation angle and the Moon's phase lie between zero and a whole turn inclusive, hour angles and geographic longitudes between minus and plus half a turn inclusive; the whole turn itself comes out exactly for angles a rounding or less below zero; nonnegative angles are reduced exactly. The codes of seasons, Moon phases and solar terms are in range and name the right part of the turn; the side of the meridian is right except within a few roundings of it. The code of oppositions_conjunctions may be 2, which is not a documented value: it is so whenever the planet's longitude exceeds the Sun's by at most 2^-54, and only if the two differ by less than a rounding from a multiple of a turn.", "quantifier": "every double-precision input and every rounding to nearest", "why_tests_cant": "The failing inputs are a few neighbouring doubles among 2^64.", "anchors": ["skyfield/almanac.py: seasons, moon_phase, moon_phases, oppositions_conjunctions, meridian_transits", "skyfield/almanac_east_asia.py: solar_terms", "skyfield/functions.py: to_spherical", "skyfield/earthlib.py: sidereal_time, earth_rotation_angle", "skyfield/positionlib.py: ICRF.hadec", "skyfield/toposlib.py: Geoid"]}
{"id": "C88", "title": "Arrays of stars, times and positions", "statement": "Observing one star at any number of times, or any number of stars at one time (with one epoch or an epoch each), gives for every member exactly the vector, velocity, light time and time that observing that one star at that one time gives; separations of an array from one position, of one position from an array and of two equal arrays are the separations of the members; the aberration of an array of targets seen by one observer or by an observer each is the aberration of the members. Observing several stars at several times is refused with ValueError. (Finding: an array of one star, such as a catalogue of one row, observed at an array of one or of three times is not refused but gives three wrong vectors.)", "quantifier": "all numbers n of members and m of times, all array contents, with NumPy's broadcasting rules modelled on shapes of any length", "why_tests_cant": "the array lengths are unbounded and the broadcasting rules treat lengths 1 and 3 specially, which tests on other lengths never see", "anchors": ["skyfield/starlib.py:Star._observe_from_bcrs", "skyfield/relativity.py:light_time_difference,add_aberration", "skyfield/functions.py:length_of,dots,angle_between", "skyfield/positionlib.py:ICRF.separation_from,Astrometric.apparent"]}
{"id": "C89", "title": "The fixed frames are those that astronomy defines", "statement": "ecliptic_J2000_frame is the equator of J2000 turned by the obliquity 84381.448 arcseconds; equatorial_B1950_frame is the mean equator and equinox of B1950, by the published precession angles; galactic_frame has its pole at 12h49m +27.4 degrees of B1950 (FK4) and its zero of longitude on the circle leaving the pole at position angle 123 degrees; the step from the ICRF to J2000 is the turn by the three published bias angles and moves no direction by more than 0.0232 arcseconds. (Findings: the documentation says 0.02; the obliquity of J2000 differs by 0.042 arcseconds from the one that the ecliptic of date uses.)", "quantifier": "all positions and times; real cosines and sines of the defining angles, with explicit error bounds", "why_tests_cant": "a test compares a few sample directions with another program's output; the theorem bounds the error of every direction against the definition", "anchors": ["skyfield/framelib.py:build_matrix,ecliptic_J2000_frame,equatorial_B1950_frame,galactic_frame", "skyfield/data/spice.py:inertial_frames", "skyfield/positionlib.py:ICRF.galactic_xyz"]}
{"id": "C90", "title": "Building times from arrays of dates", "statement": "tt_jd, tai_jd and tdb_jd with dates and fractions (arrays of one shape, or an array of floats and a number), with dates alone, ut1_jd, J, and the calendar constructors tt, tai, tdb, ut1 and utc (each of the six arguments a number or an array of one shape) build a time of that shape whose member at every index is exactly the time built from the values at that index; indexing takes those members out; the caller's arguments are left as they were. Exceptions, which are proved: a fraction given as a number beside an array of integers is truncated, as is a number of a date beside integer fractions; members of J([...]) cannot be taken out; a fraction array with more axes than the dates reshapes the caller's own array; a time made from an array of dates and fractions changes when the caller writes into that array.", "quantifier": "all array shapes of any number of axes, all array contents, all mixtures of numbers, sequences and arrays", "why_tests_cant": "shapes, lengths and mixtures of types are unbounded; the failures need an integer array or a particular number of axes", "anchors": ["skyfield/timelib.py:Timescale.tt_jd,tai_jd,tdb_jd,ut1_jd,J,tt,tai,tdb,ut1,utc,_jd,_utc,_normalize_jd_and_fraction", "skyfield/timelib.py:Time.__init__,__getitem__", "skyfield/functions.py:_to_array,_reconcile"]}
{"id": "C91", "title": "The data-file readers take each value from the place the publisher documents", "statement": "parse_constellations returns every figure of the file, in order, with its pairs of star numbers, passing over comments and empty lines however the words are spaced, and fails on a figure with a star left over; parse_star_names returns every star with its name when the name has no blank in it (a name of several words comes back as its first word only); the two comet readers take the text of every field from the columns documented by the Minor Planet Center, and agree with each other, when the designation leaves its last column free and has no two blanks inside (otherwise the fast reader returns the whole line as the year of perihelion, or ends the designation early); the Hipparcos and Tycho readers return number, magnitude, position, parallax and proper motion from fields 1, 5, 8, 9, 11, 12 and 13 of the line; the reader of the minor planet file takes the text of all 23 fields from the documented columns, so that an orbit built from a line has the elements written there.", "quantifier": "all files: any number of lines, any words, any spacing, any text in the fields", "why_tests_cant": "files change every day and their number of lines and contents are unbounded; tests read a handful of lines", "anchors": ["skyfield/data/stellarium.py:parse_constellations,parse_star_names", "skyfield/data/mpc.py:load_comets_dataframe,load_comets_dataframe_slow,load_mpcorb_dataframe,mpcorb_orbit", "skyfield/data/hipparcos.py:load_dataframe", "skyfield/data/tycho2.py:load_dataframe"]}
{"id": "C92", "title": "What an opened ephemeris says about itself", "statement": "Printing a kernel (or a chain of vectors from several kernels) lists every segment in order, under the name of its own file and after its own dates, with a new heading exactly when the file changes and new dates exactly when they change; the printed dates are right when a Julian date lies between noon and midnight and one day early otherwise, which is the case for JPL's files (proved as a finding). A kernel opens exactly if all its segments are of type 2 or 3. A segment returns position in au and velocity in au per day at the TDB of the time. Outside its dates a type 2 segment raises EphemerisRangeError with the right dates, times, mask and segment (a type 3 segment raises the library's own error instead). names() lists for every body of the kernel all its names, in the table's order; each can be used to ask for the body, and the last is the one printed. After close() nothing is offered any more; a segment that is appended is offered at once.", "quantifier": "all lists of segments from any number of files, all dates, all tables of names, all sequences of calls", "why_tests_cant": "segments, files and dates are unbounded; the shipped doctests record the wrong dates as expected output", "anchors": ["skyfield/jpllib.py:SpiceKernel.__init__,__str__,names,close,ChebyshevPosition,ChebyshevPositionVelocity,_format_segment,_format_code_and_name,_segment_name", "skyfield/vectorlib.py:VectorSum.__str__", "skyfield/errors.py:EphemerisRangeError", "skyfield/naifcodes.py"]}
{"id": "C93", "title": "Printing arrays of angles", "statement": "Printing an angle that holds a list of values says how many there are and shows the first and the last, each in the text a single angle with that value would have, in hours or degrees as preferred, signed or not; an angle with one value prints like it, an empty one as Angle []; hstr() and dstr() return the texts of the values in order. An angle whose array has a second axis of several values cannot be printed (ValueError, proved as a finding). When a method refuses because of the unit, the message names the angle's usual unit and the method called, and following its advice gives a value.", "quantifier": "all lists of real values, all array shapes, both preferences", "why_tests_cant": "values and shapes are unbounded", "anchors": ["skyfield/units.py:Angle.__str__,hstr,dstr,_sfmt,WrongUnitError"]}
{"id": "C94", "title": "load.timescale() from the text of the files", "statement": "load.timescale() uses only the bundled arrays, and these give the same timescale as the IERS file they were made from; load.timescale(builtin=False) uses the three old files if all are on disk, else finals2000A.all from the disk, else from the network, which is used in no other case. With the old files in their published formats (both formats of deltat.preds), Delta T has the measured value at the beginning of each measured day, the predicted value on each later predicted day, no jumps, and the leap seconds are those of the file after its first row. A file with a single row is refused, as is a leap second file without its line of expiration; otherwise that date plus 30 days is returned. delta_t=... makes Delta T that number at all times and changes nothing else. julian_date() of any existing date and time reads back as the same date and time. build_delta_t_table() is in order of date, with all recent rows, exactly the older bundled rows, and the parabola a century beyond both ends.", "quantifier": "all files of the published formats with any number of rows, comments and spacing, all dates and values, all combinations of files on disk", "why_tests_cant": "the number of rows and the combinations of files are unbounded; tests read the current file", "anchors": ["skyfield/iokit.py:Loader.timescale", "skyfield/io_timescale.py", "skyfield/timelib.py:Timescale.__init__,julian_date,build_delta_t_table", "builders/build_arrays.py:rebuild_iers_npz"]}
{"id": "C95", "title": "What vectors, positions, satellites and stars print", "statement": "Printing a sum or difference of vectors lists the bodies it was written with, each once and called Reversed if subtracted, in an order such that every line starts, word for word, at the place where the line before it stopped, from the start of the sum to its end (unless a sum that ends at a named place was negated on the way: then the place is called by its class, proved as a finding; an orbit without a name is listed as None). Bodies with different codes never print alike. Positions that print alike are of the same class and system, both or neither have a velocity and a date, and name the same center and target. Satellites that print alike have the same name, catalog number and printed epoch; stars that print alike have the same values, as far as those can be told from how they print.", "quantifier": "all expressions of any depth built with +, - and negation, all codes and tables of names, all classes, centers, targets, names, numbers and array shapes", "why_tests_cant": "expressions and names are unbounded", "anchors": ["skyfield/vectorlib.py:VectorFunction.__str__,arrow_str,ReversedVector,VectorSum.__str__,_jpl_name", "skyfield/positionlib.py:ICRF.__repr__", "skyfield/sgp4lib.py:EarthSatellite.target_name", "skyfield/starlib.py:Star.__repr__", "skyfield/naifcodes.py", "skyfield/keplerlib.py:_KeplerOrbit.__str__"]}
{"id": "C96", "title": "Settings of a timescale changed while times are in use", "statement": "A program may set `ts.julian_calendar_cutoff` and install a polar motion table at any moment, between making times and reading them. A time is made in the calendar in force at that moment and never moves afterwards: its TT, TAI, TDB, UT1 and ordinal stay. Every calendar method (`utc_iso`, `utc_strftime`, `tt_calendar`, `tt_strftime`, \u2026) and `polar_motion_angles` answers with the settings in force when it is called. Only the attribute `.utc` differs: it is computed at its first read, in the calendar then in force, and each later read gives that first answer again, so after a later change of the cutoff `.utc` and `utc_iso()` of one time name different dates.", "quantifier": "every timescale, every program that sets the settings, makes times and reads them in any order, every time in it", "why_tests_cant": "a test runs one program with one order of settings and reads; whether a cached answer outlives a setting depends on the whole history", "anchors": ["skyfield/timelib.py: Timescale.julian_calendar_cutoff, Timescale.polar_motion_table, Time.utc, Time._utc_tuple, Timescale._cal, Timescale._strftime", "skyfield/descriptorlib.py: reify", "skyfield/data/iers.py: install_polar_motion_table"]}
{"id": "C97", "title": "Dates in machine numbers", "statement": "`ts.utc()`, `ts.tt()` and the other constructors compute the day number of a date in the number type the caller hands in: plain numbers become `float64`, lists `int64`, and an array keeps its own type. For years within 10^12 (`float64`), 10^15 (`int64`) or 10^6 (`int32`) of zero no intermediate result overflows or is rounded, so the day number, and the date read back from a day number, are the exact ones. With `int16` arrays no date after the year \u22124623 comes out right, and as `uint8` every month but March and April is read as another one, both without any error.", "quantifier": "every year, month and day within the stated ranges, every calendar cutoff, every number type that is exact up to some bound", "why_tests_cant": "overflow and rounding depend on the sizes of a dozen intermediate results; a test covers a handful of dates in one type", "anchors": ["skyfield/timelib.py: julian_day, compute_calendar_date, Timescale._utc, Timescale._jd", "skyfield/functions.py: _to_array"]}
{"id": "C98", "title": "A loader gives every file its name, its address and its format", "statement": "A freshly made loader opens any name with the extension .bsp as a SPICE kernel, and fetches it, if it is not there, from NAIF's satellite directory when it begins with jup and otherwise from JPL's directory of planetary ephemerides; .bpc, .tpc and .tf files are opened as plain binary files and only three of them have an address; the two Delta T tables and the leap second table are parsed; every other name is refused with ValueError.  The local name of a web address is its last name, whatever parameters, query or fragment follow.  download(name) writes to the path from which a call with the name reads; different names are different paths; load_file opens .bsp files and refuses all others.", "quantifier": "Every file name, every web address, every directory and every state of the disk", "why_tests_cant": "The names a user may pass are unbounded; tests try two or three of them and cannot reach the servers.", "anchors": ["skyfield/iokit.py:Loader.__init__", "skyfield/iokit.py:Loader.__call__", "skyfield/iokit.py:Loader.download", "skyfield/iokit.py:_search", "skyfield/iokit.py:_filename_of", "skyfield/iokit.py:load_file"]}
{"id": "C99", "title": "The progress bar tells the truth", "statement": "While a file of known length is downloaded, the bar shows some of the blocks in their order, each with the percentage of the bytes that have arrived, rounded down, never above 100 and never going down; a block is shown exactly when it completes the file or no line was printed within the half second before; all lines have the same width; 100% is shown exactly when everything has arrived, as the last line and the only one that ends with a newline.  When the server gives no length nothing is printed; when it announces no bytes but sends some the download fails.", "quantifier": "Every file length, every sequence of blocks and every clock that does not run backwards", "why_tests_cant": "The lines depend on the sizes of the blocks and the times of their arrival, which a test cannot enumerate.", "anchors": ["skyfield/iokit.py:ProgressBar", "skyfield/iokit.py:download"]}
{"id": "C100", "title": "Altitude and azimuth mean what the horizon says", "statement": "For every place given by latitude, longitude and elevation on an ellipsoid, altaz() measures from the directions in which the place itself moves when elevation, latitude and longitude grow: altitude up from the plane they span, azimuth from north through east. The altitude is 90 degrees less the angle from the zenith; what stands over the pole stands due north at the altitude of the latitude; altitude and azimuth agree with hadec() through the astronomical triangle; local sidereal time is the right ascension of the zenith. From a place on the ellipsoid a position has negative altitude exactly if the line of sight runs into the ground; other places on the ellipsoid are always below the horizon and what is higher at the same latitude and longitude is in the zenith. Weather changes only the altitude.", "quantifier": "Every proper ellipsoid, place, time (with or without polar motion) and position", "why_tests_cant": "The claim relates three functions (latlon, altaz, hadec) over continuous ranges of places, times and directions.", "anchors": ["skyfield/positionlib.py:_to_altaz", "skyfield/positionlib.py:ICRF.hadec", "skyfield/toposlib.py:GeographicPosition.rotation_at", "skyfield/toposlib.py:GeographicPosition.refract", "skyfield/toposlib.py:GeographicPosition.lst_hours_at", "skyfield/toposlib.py:Geoid.latlon"]}
{"id": "C101", "title": "A printed distance or velocity is the nearest number of six digits", "statement": "Printing a Distance or a Velocity that holds a single number gives a numeral and the unit au or au/day. Read back, the numeral is a number of at most six significant digits, and no other such number is nearer to the number held; it has a minus sign exactly if the float has. So a number of at most six digits prints exactly, the printed number is off by at most five parts in a million, and of two distances the larger never prints as the smaller number. From 0.0001 up to 100000 there is no exponent, and digits stand on both sides of the point; beyond, one non-zero digit stands before the point and an exponent with sign and at least two digits follows; no numeral ends in a needless zero.", "quantifier": "every finite number, with its sign bit", "why_tests_cant": "Rounding and layout have boundaries at every power of ten and ties at every half of the last place; tests print a few numbers.", "anchors": ["skyfield/units.py:Distance.__str__", "skyfield/units.py:Distance.__repr__", "skyfield/units.py:Velocity.__str__", "skyfield/units.py:Velocity.__repr__"]}
{"id": "C102", "title": "Osculating elements describe the same orbit in every frame, in the documented units", "statement": "Asking for the osculating elements of a position in a rotated reference frame changes neither the eccentricity, the sizes, the rate and the period, nor (for an orbit that is not circular) the anomalies and the time of periapsis; the inclination is measured from the frame's third axis. Sizes come out in kilometers, rates per day and periods in days for positions in au and au per day with GM in km\u00b3/s\u00b2, so that the vis-viva equation and Kepler's third law hold between them.", "quantifier": "every position and velocity, every GM given or tabulated, every reference frame matrix preserving lengths and angles", "why_tests_cant": "Invariance over a continuum of orbits and frames; tests compare a few orbits with published elements.", "anchors": ["skyfield/elementslib.py: osculating_elements_of, OsculatingElements"]}
{"id": "C103", "title": "A date format shows what each of its pieces says", "statement": "The text made by utc_strftime, tt_strftime and their siblings is what each piece of the format shows, one after the other: plain characters as they are, %% as a percent sign, %f as six digits of microseconds, and other directives as the C library shows them for one and the same calendar reading. That reading is the nearest whole second if the format shows seconds, the nearest minute if it shows minutes and nothing finer, the microsecond in which the instant lies if it has a %f, and the second in which the instant lies otherwise; its weekday and day of the year are those of the date shown.", "quantifier": "every format (with or without flags on its directives), every C library that keeps to POSIX, every instant, every well-formed leap second table", "why_tests_cant": "Formats are unbounded texts and the code scans them with regular expressions that know nothing of their grammar; a test tries a handful of formats on a handful of dates.", "anchors": ["skyfield/timelib.py: Time.utc_strftime, Time.tt_strftime, Time.tai_strftime, Time.tdb_strftime, Time.ut1_strftime, Timescale._strftime, _strftime_offset_seconds, _strftime"]}
{"id": "C104", "title": "The masses that Skyfield knows fit together", "statement": "The table of gravitational parameters has one positive entry per body; the mass of each planetary system is that of its planet and listed moons to two parts in a million (Pluto's to 0.15%), and that of the Solar System is the sum of its bodies. `osculating_elements_of()` about a body in the table is never refused: about a barycenter it uses the mass of the system, about a body the masses of both bodies. The reciprocal masses that `apparent()` uses for deflection are the same masses to 1.5 parts in 100 000 (Pluto's to half a percent), the same by name and by number, and the default deflectors never raise an exception on an ephemeris that has the Sun and the systems of Jupiter and Saturn. The older `add_deflection()` gives the same deflection as `apparent()`. Light grazing the Sun is bent by 1.75 arcseconds at one au.", "quantifier": "every entry of the tables; every pair of center and target; every ephemeris, observer, target and time; every source and observer in the geometry of a grazing ray", "why_tests_cant": "Tests compare a few positions with other software. They neither compare the two tables of masses nor try every pair of bodies or every ephemeris.", "anchors": ["skyfield/data/gravitational_parameters.py: GM_dict", "skyfield/relativity.py: rmasses, deflectors, add_deflection", "skyfield/elementslib.py: osculating_elements_of", "skyfield/positionlib.py: Astrometric.apparent"]}
{"id": "C105", "title": "Searches for maxima and minima in machine arithmetic", "statement": "With the rounding of every floating point operation: an ordinary search by find_maxima or find_minima (dates before the year 5691 and at most a million days apart, steps of at least a tenth of a second, epsilon at least num times 0.9 milliseconds) returns after at most 50 rounds. What it reports lies exactly within the two times, in order with any two more than epsilon apart, and each is strictly between two moments at which the function is strictly lower (higher) than the reported value, which the function has between them. If the function is below a value, then at least that value, then below it again, each for at least step_days and two milliseconds, a maximum of at least that value is seen in between, and reported unless another was seen at most epsilon before it.", "quantifier": "every way of rounding to nearest, pair of times, function of time, step or rough period, precision and number of samples in the stated ranges", "why_tests_cant": "the refined samples, their spacing and the middle of a level stretch are all rounded, and whether a loop that compares rounded differences with a precision ends depends on every function and every date", "anchors": ["skyfield/searchlib.py: find_maxima, find_minima, _choose_brackets, _identify_maxima", "skyfield/timelib.py: Time.__sub__, Timescale.tt_jd"]}
{"id": "C106", "title": "Nutation and sidereal time change steadily", "statement": "With the tables bundled with the library: between any two dates within thirty centuries of J2000, and for any number of terms, nutation in longitude changes by at most 0.2708 arcseconds and nutation in obliquity by at most 0.1091 arcseconds for each day between them, for the full and the short series alike. Greenwich apparent sidereal time (gast) always exists, and advances, up to whole days, by 1.00273790935 times the UT1 elapsed to within 0.0184 seconds for each day; so it is back where it was after 23 h 56 m 4.0905 s of UT1, to within 0.0185 seconds.", "quantifier": "every two dates within thirty centuries of J2000, number of terms from two to five fundamental coefficients and any number of series terms, and every \u0394T curve changing by at most 40 seconds a day", "why_tests_cant": "a sum of more than thirteen hundred sines could jump or spike between any two dates tried; only a bound over all dates rules it out", "anchors": ["skyfield/nutationlib.py: iau2000a, iau2000b, iau2000a_radians, iau2000b_radians, fundamental_arguments, equation_of_the_equinoxes_complimentary_terms", "skyfield/data/nutation.npz", "skyfield/timelib.py: Time.gast, Time.gmst", "skyfield/earthlib.py: sidereal_time"]}
{"id": "C107", "title": "Apparent places stay close to astrometric ones", "statement": "apparent() neither fails nor gives nan for a target that is clear of every deflector, and it moves the target on the sky by no more than the gravitational bendings of the deflectors and of the Earth plus the aberration belonging to the observer's speed. From the Earth, with the usual deflectors, that is at most 22.5 arcseconds for anything at least a degree from the Sun and an arcminute from Jupiter and Saturn, or well in front of them; and the apparent distance is the astrometric distance to one part in ten thousand million.", "quantifier": "every target, observer position and velocity, every list of deflectors with any masses on any paths, every time", "why_tests_cant": "the effects accumulate over any number of deflectors and depend on continuous geometry; a test sees single configurations and cannot show that none of them fails or strays further", "anchors": ["skyfield/positionlib.py: Astrometric.apparent", "skyfield/relativity.py: _compute_deflector_position, _compute_deflection, add_aberration", "skyfield/earthlib.py: compute_limb_angle"]}
{"id": "C108", "title": "Sums of vectors keep their ephemeris and their error message", "statement": "A difference a - b reports the error message of a, a sum reports the message of the vector where it ends, and a negated vector that of the original; so a satellite seen from a place, or added to the Earth, explains why it has no position. A sum remembers an ephemeris if either part does, a difference of vectors from one ephemeris remembers that one, and no vector remembers an ephemeris that none of its parts has. Limits: a place seen from a satellite loses the satellite's message, and a negated vector has no ephemeris.", "quantifier": "every pair of vector functions, however deeply nested their sums and reversals, every time", "why_tests_cant": "vectors can be nested without bound; a test tries a few combinations", "anchors": ["skyfield/vectorlib.py: VectorFunction.__add__, __sub__, __neg__, ReversedVector, VectorSum", "skyfield/sgp4lib.py: EarthSatellite._at", "skyfield/jpllib.py: SPICESegment, Stack"]}
{"id": "C109", "title": "Parallax: moving the observer moves the target by the right amount and no more", "statement": "Moving the observer by some way shifts a target on the sky by at most the angle under which that way is seen from the target, and by exactly that when the target is at a right angle. So a Star without motion is shifted, seen from one au away from the barycenter, by at most its catalogued parallax, reached at a right angle (a moving star: plus what it moves in the light's travel time); a position made by position_of_radec() or from_radec() without a distance is a gigaparsec away and shifts by no more than a thousandth of a microarcsecond per au, anywhere in the Solar System; and seen from the ground a body stands at most arcsin((a + |elevation|)/d) from its geocentric place: never more than 1.03 degrees for the Moon or 9 arcseconds for a body as far as the Sun. The old position_from_radec() puts a position without a distance one au away, in the same direction.", "quantifier": "all target vectors, observers, stars, parallaxes, right ascensions, declinations, epochs, places and times", "why_tests_cant": "The bound is over a continuum of observers and targets; tests compare a few positions with stored numbers.", "anchors": ["skyfield/positionlib.py:position_of_radec", "skyfield/positionlib.py:position_from_radec", "skyfield/positionlib.py:ICRF.from_radec", "skyfield/starlib.py:Star._observe_from_bcrs", "skyfield/toposlib.py:Geoid.latlon", "skyfield/toposlib.py:ITRSPosition._at"]}
{"id": "C110", "title": "The frames of date turn slowly, and a place on Earth moves with the velocity it reports", "statement": "Between two times at most a century apart the coordinates of a fixed direction turn by no more than 0.15 arcseconds a day in the mean equator and equinox of date, 0.54 in the true equator and equinox of date and 0.43 in the ecliptic frame: no date makes them jump. A place fixed to the Earth gets from its position at one time to its position at another by the velocity it reports, but for the curvature of its way and a drift of its axis and equinox of at most 4.7 millionths of its distance a day; so a place on the wgs84 ellipsoid, up to 9 km high, moves with its velocity to within 0.6 mm/s and is within 18 mm of where the velocity takes it a second later. This is with IAU 2000A or 2000B nutation, for times within thirty centuries of J2000 over which Delta T changes no faster than 4.1 ms a day, without a polar motion table.", "quantifier": "every pair of times of every such time scale, every place and every direction", "why_tests_cant": "velocity is one formula and position is another, with over a thousand nutation terms in it; that they agree at every instant is a statement about a continuum of times.", "anchors": ["skyfield/toposlib.py:ITRSPosition._at", "skyfield/framelib.py:itrs", "skyfield/framelib.py:mean_equator_and_equinox_of_date", "skyfield/framelib.py:true_equator_and_equinox_of_date", "skyfield/framelib.py:ecliptic_frame", "skyfield/timelib.py:Time.M", "skyfield/timelib.py:Time.gast", "skyfield/precessionlib.py:compute_precession", "skyfield/nutationlib.py:build_nutation_matrix"]}
{"id": "C111", "title": "How close the direct searches come to the passages of targets that move", "statement": "Take a target whose hour angle changes at w radians a day to within e, with e at most a seventh of w and more than 0.8 days to a turn. find_transits() reports exactly one time for each passage over the meridian, in order, each within 0.8 (2e/(w-e))^4 days of the passage or within a microsecond: two microseconds if e is a thousandth of w, half a second if it is a fortieth. If the lead of the hour angle over the one at which the target meets the horizon is as steady, find_risings() and find_settings() report one entry for each passage, and every time that is a number is within 3.2 (2e/(w-e))^3 days or four microseconds of it: 0.05 s, 2.5 s and 40 s for a steadiness of 1/400, 1/100 and 1/40. That lead is steady whenever the declination changes slowly and the target does not merely graze the horizon, with an explicit factor. A passage is a moment at which the altitude equals that of the horizon, in the west for settings and in the east for risings.", "quantifier": "every motion of the target within the stated steadiness, every span of the search, latitude, declination and horizon (passages exactly on a sample time excepted)", "why_tests_cant": "tests compare a few dates of the Sun and Moon with published tables to a second; the bound covers every motion and the number and order of events in every span", "anchors": ["skyfield/almanac.py: find_transits", "skyfield/almanac.py: find_risings", "skyfield/almanac.py: find_settings", "skyfield/almanac.py: _find", "skyfield/almanac.py: _setting_hour_angle"]}
{"id": "C112", "title": "Hour angles advance at the sidereal rate", "statement": "For two times within thirty centuries of J2000, d days of UT1 apart, and an observer on the Earth, the hour angle that hadec() gives for a target grows by 1.00273790935 turns for each day, up to whole turns, to within 5.5 millionths of a radian a day plus pi/2 times the distance its direction has moved among the stars, both divided by the cosine of the declination. The sine of its declination changes by no more than that distance and 2.6 millionths a day. So one sidereal day later a fixed direction has the same hour angle to within 1.2 arcseconds over the cosine of the declination.", "quantifier": "all pairs of times within thirty centuries of J2000 whose clocks agree to a tenth of a percent, all longitudes, all target positions other than zero (no polar motion table)", "why_tests_cant": "tests check hour angles of a few targets at single dates; the bound covers every pair of dates, every direction and every place through nutation, precession and sidereal time together", "anchors": ["skyfield/positionlib.py: ICRF.hadec", "skyfield/timelib.py: Time.gast", "skyfield/framelib.py: itrs"]}
{"id": "C113", "title": "The built-in time scale", "statement": "load.timescale() with the files that Skyfield carries always succeeds, whatever is on disk. Its leap seconds are the ones announced from 1972 to 2017, no more and no fewer. Over its daily table (January 1973 to 2027) Delta T is between 43 and 70.1 seconds, changes by no more than 4.03 milliseconds a day, UT1 runs forward with TT to within 47 parts in a thousand million, a time made from UT1 reads its UT1 back to 2e-18 days, and dut1 is at most 0.9 seconds either way, leap seconds included. Two such times meet what the properties about sidereal time, the Earth's turning and hour angles ask of the clocks. From -720 to 1971 Delta T is the bundled historical table, and before -1520 and after 2828 the long-term parabola. At every date, for all of time, Delta T jumps by no more than a millisecond, and only at the starts of pieces of the historical table (at 1950.0 it does, and UT1 steps back).", "quantifier": "all times TT (or UT1) as real numbers, inside the daily table or, for the steps, anywhere; all states of the disk and the network", "why_tests_cant": "tests compare Delta T with a handful of dates; the bounds are over a continuum of times between 19,745 table rows and 58 historical pieces", "anchors": ["skyfield/iokit.py: Loader.timescale", "skyfield/timelib.py: Timescale", "skyfield/timelib.py: build_delta_t", "skyfield/data/iers.npz", "skyfield/data/delta_t.npz"]}
{"id": "C114", "title": "Meridian transits are all found, on Skyfield's own Earth and clock", "statement": "find_discrete() over meridian_transits(), with the built-in time scale and any span of its daily table, returns the passages of the target and nothing else, for any place not within about a kilometer of a pole and any target whose direction moves slowly enough for its declination (the Moon, the Sun, planets and stars do). The search stops. At a time reported as a meridian transit the hour angle, computed from the precession, nutation, sidereal time and Delta T of that date, is past zero by at most 8.6e-8 radians, and at an antimeridian transit past half a turn by at most as much. Wherever the hour angle is zero a meridian transit is reported within 1.04 milliseconds, and wherever it is half a turn an antimeridian transit, so no passage is missed. The two kinds alternate, half a turn apart. More generally the same holds for a search, every 0.4 days, of the side of the meridian of anything that turns by between 5.3 and 7.3 radians a day but for small jumps.", "quantifier": "every target motion within the stated speed, every place off the poles, every span of TT dates inside the built-in daily table", "why_tests_cant": "tests compare a handful of transits with published times; that no passage is missed or invented is a statement about every instant of every span, through nutation, precession, sidereal time and Delta T", "anchors": ["skyfield/almanac.py: meridian_transits", "skyfield/searchlib.py: find_discrete", "skyfield/timelib.py: Time.gast", "skyfield/positionlib.py: ICRF.radec", "skyfield/toposlib.py: ITRSPosition._at"]}
{"id": "C115", "title": "The almanac searches report every event their step can tell apart", "statement": "A discrete search of any function reports the beginning of each spell of one value exactly once, never early and at most epsilon late, with that spell's value, in order, and nothing else, provided that no value recurs within a step and no two spells begin within epsilon. For seasons() and moon_phases() that means every equinox and solstice, every new moon, quarter and full moon, as long as the longitude gains less than three quarters of a turn in a step (90 and 7 days); for solar_terms() less than 23 of the 24 terms in 14 days; for oppositions_conjunctions() less than half a turn in 40 days, for outer planets, for inner planets and, with the codes the other way round, in 14 days for the Moon; for moon_nodes() less than half a turn of the argument of latitude in 12 days; for sunrise_sunset() days and nights of at least 0.04 days and for risings_and_settings() of at least 0.25; for dark_twilight_day() even shorter twilights, unless the light returns within 0.04 days to what it was. Where a spell is shorter than a step a search can miss it: a Moon that goes from before a conjunction to after the opposition in under 14 days is reported at neither.", "quantifier": "every motion of the bodies that meets the stated condition, every span of dates, every epsilon and number of subdivisions", "why_tests_cant": "Completeness of a search is about every instant between the samples; a test only shows that a few known events appear.", "anchors": ["skyfield/searchlib.py: find_discrete", "skyfield/almanac.py: seasons, moon_phases, moon_nodes, oppositions_conjunctions, sunrise_sunset, dark_twilight_day, risings_and_settings", "skyfield/almanac_east_asia.py: solar_terms"]}
{"id": "C116", "title": "Searches for maxima find every top of a function that goes up and down", "statement": "If a function rises and falls in turn and each rise and fall lasts at least two of its steps (with the legacy rough_period: three times that period divided by num), then find_maxima reports every top between the two times, apart from a small margin at the ends, exactly once and within epsilon of its moment, with a value no smaller than any of that hill's outside of epsilon of the top; it reports nothing else, and in order. find_minima does the same for the bottoms. Hence lunar_eclipses reports each opposition at which the Moon touches the Earth's shadow once, within a second, with a code that fits, and nothing that is not an eclipse; and find_events reports each culmination above the limit once, within half a second; and if the satellite is down at the start and at the end and its passes are clear ones (up for half a second around each culmination that reaches the limit, down for half a second around the moment half-way between two of them), each climb and each sinking through the limit is reported once, as a rising or a setting, not before its moment and not half a second after it, and no other risings or settings are.", "quantifier": "every function that undulates as described, every pair of times, every epsilon up to the step, every number of samples, every orbit of Sun, Earth and Moon with the usual distances, every satellite", "why_tests_cant": "a test searches one function; that no top of any function can slip between the samples, round after round, and that none is reported twice, is a statement about all functions and all depths of refinement", "anchors": ["skyfield/searchlib.py:find_maxima", "skyfield/searchlib.py:find_minima", "skyfield/eclipselib.py:lunar_eclipses", "skyfield/sgp4lib.py:EarthSatellite.find_events"]}
{"id": "C117", "title": "The searches for sunrise, sunset, risings and settings miss nothing, on the sky Skyfield computes", "statement": "With the built-in time scale, while its daily table lasts, find_discrete() over sunrise_sunset() returns, for every place and span, whenever the Sun's days and nights each last longer than the one-hour step, exactly the risings and settings: at each reported rising the altitude that altaz() gives is at least -0.8333 degrees and was less than that within the millisecond before; at each reported setting the other way round; at every moment of the span the Sun is up or down as the latest reported event says, but for 1.04 ms before an event and 0.04 ms after it; and risings and settings alternate. The same holds of risings_and_settings(), with its horizon and radius, for targets that are up for longer than its quarter-day step, and down for longer; and of dark_twilight_day(), whose events say what kind of light it is at every moment. The bounds on the target's motion under which this is proved cover the Sun and the Moon seen from latitude 45 degrees.", "quantifier": "all spans inside the daily table, all places not at a pole, all targets whose direction moves by at most a given number of radians a day and whose arc above the altitude stays away from nothing and from the whole turn, all horizons and radii", "why_tests_cant": "the search samples the altitude at a grid of moments; whether a rising between samples is missed depends on the rotation of the Earth, precession, nutation and the clocks at every moment between them, which no finite set of dates settles", "anchors": ["skyfield/almanac.py:sunrise_sunset", "skyfield/almanac.py:risings_and_settings", "skyfield/almanac.py:dark_twilight_day", "skyfield/searchlib.py:find_discrete", "skyfield/positionlib.py:ICRF.altaz"]}
{"id": "C118", "title": "The searches for seasons, moon phases and nodes, solar terms and oppositions miss nothing, on the ecliptic Skyfield computes", "statement": "Within 29 centuries of J2000 and with any time scale, find_discrete() over seasons() ends, and returns, for every span, exactly the passages of the Sun's ecliptic longitude of date through the multiples of 90 degrees: at each event the longitude is past the multiple that the event's value names, by no more than the Sun moves in 1.04 ms; wherever in the span the longitude is at a multiple, there is an event that names it, no more than 0.1 ms before and 1.1 ms after; and the events name the seasons in their order, none left out. The same holds of solar_terms() with multiples of 15 degrees, of moon_phases() for the Moon's longitude less the Sun's, and of oppositions_conjunctions() for the Sun's longitude less that of an outer planet, which may go backwards. For a planet that goes to and fro about the Sun, and takes more than 40 days from one conjunction to the next, the events are its conjunctions: at each event 1 the planet is east of the Sun and was not within the millisecond before, at each event 0 the other way round, and none is missed. And find_discrete() over moon_nodes() returns exactly the Moon's passages through the ecliptic of date: at each ascending node the latitude is positive and was not within the millisecond before, at each descending node the other way round; at every moment of the span the Moon is north of the ecliptic or not as the latest event says, but for 1.04 ms before an event and 0.04 ms after it; and the two kinds alternate. What is asked of the bodies is that they advance along the ecliptic of a fixed date, at rates between bounds that the Sun, the Moon and the outer planets keep to; precession, nutation and the motion of the ecliptic are those computed.", "quantifier": "all time scales, all spans within 29 centuries of J2000, all bodies whose ecliptic longitudes advance at rates within the bounds given and whose ecliptic latitudes stay within 60 degrees; for nodes, all orbits inclined by 0.08 radians or more along which the Moon moves by less than half a turn in 12 days", "why_tests_cant": "the search samples the longitude every 7 to 90 days; whether it misses a passage or reports one twice depends on precession, nutation and the body's motion at every moment between, which no finite set of dates settles", "anchors": ["skyfield/almanac.py:seasons", "skyfield/almanac.py:moon_phases", "skyfield/almanac.py:moon_nodes", "skyfield/almanac.py:oppositions_conjunctions", "skyfield/almanac_east_asia.py:solar_terms", "skyfield/searchlib.py:find_discrete", "skyfield/framelib.py:ecliptic_frame"]}
{"id": "C119", "title": "A power failure during or after a download leaves the old file or the new one", "statement": "If the power fails at any moment of a download, or after it has returned, then on a disk that does not rename a file before it has written its data the destination holds after the restart what it held before or all that was received, or (only when a backup was asked for) nothing, and then the old content is at a name that was free.  On every disk, even one that renames first, all other files are as they were, with backup=True the old content is still there, and the destination holds the old content or the first part of the new.  On a disk that works in order, a failure during any number of downloads at once leaves a state that killing the processes at some moment could have left.", "quantifier": "all destinations, streams, states of the directory, ways the writer flushes its buffer, moments of the failure, and sets of calls that the disk has kept", "why_tests_cant": "What a disk keeps depends on its cache and on the moment; a test would need to cut the power of a machine at every moment, and each file system behaves differently.", "anchors": ["skyfield/iokit.py: download, _rename_original, _replace", "skyfield/iokit.py: Loader.download"]}
{"id": "C120", "title": "A search may be split in two", "statement": "If the changes of a search function can be told apart by its step, then a search from a to m and one from m to b find together the same events, in the same order, with the same values and within the precision of the search, as one search from a to b. This holds of seasons, moon phases and nodes, solar terms, oppositions, sunrises, risings and twilight. If a spell is shorter than the step it may fail: the whole search finds nothing where the parts find changes.", "quantifier": "every start, end and date between, every function with the spells described, every precision, numbers of samples that may differ between the searches", "why_tests_cant": "A test splits a few searches at a few dates; the claim is about every date of splitting, including the very moment of an event.", "anchors": ["skyfield/searchlib.py:find_discrete", "skyfield/almanac.py:seasons", "skyfield/almanac.py:moon_phases", "skyfield/almanac.py:oppositions_conjunctions", "skyfield/almanac_east_asia.py:solar_terms"]}
