# Formal model of python-skyfield in Lean 4

## Layout

* `lean/Verif/Model/*.lean` – definitions that mirror functions of `/repo/skyfield`,
  branch by branch; every definition cites the file and lines it models and any simplification.
* `lean/Verif/Spec/*.lean` – small specifications that do not use the model
  (e.g. the Gregorian leap-year rule, "lies on the sphere").
* `lean/Verif/Lemmas/*.lean` – helper lemmas.
* `lean/Verif/Props/*.lean` – the property theorems, named `Cnn_...`, each with an `example`
  beside it showing that its hypotheses are met by a concrete non-trivial case.
* `properties.jsonl`, `MANIFEST.json`, `seeded/LOG.jsonl` – property list, claim status, mutation log.

## Trusted base

* Lean 4.33.0's kernel, and Mathlib definitions used in statements (ℚ, ℝ, `Real.sin`, `Complex.arg`, `List`, ...).
* Axioms: only `propext`, `Classical.choice`, `Quot.sound` (a subset of these for each theorem).
  No axioms are added; no `sorry`, `native_decide`, `bv_decide`, `implemented_by`, `unsafe`.
* The reading of the Python source: the theorems are about the model; the tie to the code is the
  line citation on every definition.

## Modelling decisions

* **Floating point is not modelled.** Python floats become exact rationals or reals.  Integer-valued
  NumPy arithmetic (`//`, `%`, `divmod`) is modelled on ℤ with floor division, which is what Python
  and NumPy do on signed integers.  Every theorem about real-valued code is therefore about the exact-arithmetic
  reading of the code; rounding error is outside the model.
* **nan** is modelled by `Option` / an explicit error value where the code relies on it.
* **Exceptions** are values (`Except`).
* **NumPy broadcasting** is modelled elementwise (a vectorised function is the map of its scalar version),
  except where array handling is itself the subject (search, stacks, slicing).
* **External libraries** (jplephem, sgp4, numpy.interp on sorted tables, the OS) are parameters or
  small explicit models, listed per module below.

## Per-property plan

| id | what is modelled | how it is proved |
|---|---|---|
| C01 | `julian_day`, `compute_calendar_date` over ℤ | case split on the cycle structure + `omega` |
| C02 | same, against an independent leap-year/month-length spec | successor-day lemma, then induction on distance |
| C03 | same with `julian_before = some c` | `omega` on both branches; negation witness for ancient cutoffs |
| C04 | same | `omega` |
| C05–C07 | `Timescale.__init__` leap tables, `_utc`, `_utc_tuple` over ℚ with arbitrary table | piecewise reasoning on the interpolation table |
| C08 | rounding offset plus `_utc_tuple` truncation | floor arithmetic over ℚ |
| C09 | `calendar_tuple` over ℚ | floor arithmetic, C01 |
| C10 | `Time.__add__`, `__sub__`, comparisons over ℚ whole/fraction pairs | `ring`, order lemmas |
| C11 | scale constructors | algebra; Lipschitz bound for UT1/TDB |
| C12 | `tdb_minus_tt` over ℝ | `|sin| ≤ 1`; negation by a witness argument |
| C13 | `DeltaT`, `Splines`, `build_spline_given_ends` over ℚ/ℝ | algebra, interpolation lemmas |
| C14 | `linspace` | algebra |
| C15–C17 | `_find_discrete` as a loop over bracket lists | bracket invariant by induction on rounds; width measure for termination |
| C18–C19 | `find_maxima` and helpers over lists | invariants of list filters |
| C20 | unit tables over ℝ | `field_simp` |
| C21–C23 | sexagesimal functions over ℚ | floor arithmetic |
| C24 | decision logic of preference checks | case analysis |
| C25–C27 | file system as a map path → content, the download as a step machine with crash/interleaving | invariant by induction over steps |
| C28 | loader decision logic over the same file system | case analysis + induction on calls |
| C29 | TLE line parser as a state machine over lists of lines | induction on the list, against a declarative spec |
| C30 | `build_timescale_arrays` over lists of ℚ | induction |
| C31 | `SpiceKernel.__getitem__` over segment lists | induction along the chain |
| C32 | `Stack` | case analysis, induction over segments |
| C33 | vector expressions as a datatype | structural induction |
| C34 | light-time iteration over ℝ | postcondition by loop unrolling, contraction |
| C35 | matrices `Matrix (Fin 3) (Fin 3) ℝ` | `sin²+cos²=1` |
| C36–C37 | `to_spherical`, `from_spherical`, `angle_between` over ℝ with `arctan2` = `Complex.arg` | real analysis |
| C38 | frame conversions | orthogonality algebra |
| C39–C41 | line/sphere/ellipsoid geometry over ℝ | quadratic formula |
| C42 | `Geoid.latlon`, latitude iteration | trigonometric algebra |
| C43 | aberration and deflection formulas | vector algebra |
| C44–C45 | `ele_to_vec`, Lagrange coefficients | algebra with Stumpff identities |
| C46–C49 | illumination, almanac codes, eclipses, angle normalisation | inequalities, floor arithmetic |
| C50 | `searchsorted` lookup | induction on sorted lists |
| C51–C52 | memoisation machine, indexing | induction on reads |
| C53 | text PCK assignments as a fold | induction |
| C54 | epoch year pivot | `omega` |
| C55 | stereographic formula over ℝ | algebra |
| C56 | `find_maxima` loop with its real step sizes | width measure over rounds |
| C57 | `_to_spherical_and_rates` against derivatives of the spherical coordinates | `HasDerivAt` |
| C58 | anomaly solvers of keplerlib, MPC comet perihelion | loop postcondition, monotone Kepler function; negations for e = 0, parabolas, hyperbolas |
| C59 | hour angles, `_intersection`, candidates of `_find` | trigonometry, floor arithmetic |
| C60 | `theta_GMST1982`, `TEME_to_ITRF`, `EarthSatellite._at`, `ITRF_position_velocity_error` | derivative identity for an arbitrary motion; the two routes to Earth-fixed coordinates compared, using the near-isometry of C35 and bounds on π |
| C61 | `refraction`, `refract` | monotone iteration with an error bound; negation at absurd density |
| C62–C63 | `OsculatingElements` and `ele_to_vec` | vector algebra (`grind`), angle uniqueness in an orbit frame |
| C64 | the same along any motion satisfying the two-body equation | conserved vectors, constant-derivative arguments; negation for far hyperbolas |
| C65 | whole of `_find` over lists | induction over samples, intermediate value theorem |
| C66 | the same for a uniformly turning sky | fixed point of the iteration computed exactly |
| C67 | `find_events` on top of the search model: culminations, rising/setting samples around them, merge | invariants of the sample lists; every sample between two culminations changes side as the altitude does |
| C68 | the altitude of a satellite with sidereal time and precession-nutation as replaceable values | matrices cancel because their outer factors are isometries; C35's bound for the inner one |
| C69 | `Star._compute_vectors`, `_observe_from_bcrs` | derivative of the spherical coordinates along the line (C57), sine bounds, plane-wave estimate |
| C70 | `planetary_magnitude`, all eight formulas, nan as `none` | every formula is (phase part) + 5 log10(r·Δ); polynomial positivity; pole and phase angles by arccos |
| C71 | `position_angle_of` | components of the second direction along north and east of the first |
| C72 | position objects with kind, ends, time, observer; subtraction, negation, indexing, `observe`, `apparent`, the rotation `altaz` uses | case analysis; displacements of any assignment of places to bodies |
| C73 | `PlanetaryConstants`: segments, frame definitions, places | exact characterisation of success; induction over angle lists; orthogonality |
| C74 | `nutationlib.py` with the bundled amplitudes and arbitrary multiplier tables | induction over the series; table sums by kernel evaluation; 2π-periodicity |
| C75 | precession, nutation, polar motion, ecliptic, TIRS, CIRS, TEME rotations | action on an arbitrary ecliptic or equatorial direction; published polynomials as power series |
| C76 | `_KeplerOrbit` builders, `_at`, `elements_at_epoch`, `comet_orbit`, `mpcorb_orbit` | composition of C44, C45, C58, C62 with unit change of a two-body motion; perihelion from the eccentricity vector and the phase of C64 |
| C77 | packed epochs and `unpack` | digit tables by cases over the 36 digits, calendar of C02, decimal digits of numbers |
| C78 | `from_datetime(s)`, `utc()` dispatch, `astimezone…`, exceptions; a zone is any offset as a function of UTC | Python's datetime as a microsecond count over the calendar of C02, composed with C05 and C08 |
| C79 | `frame_latlon_and_rates`, `separation_from` with broadcasting, epoch arguments, `cirs_*`, deprecated ecliptic/galactic methods, `ITRF_to_GCRS2` | derivatives composed from C38 and C57; law of cosines from C36 and C37; triangle inequality through Mathlib's Euclidean space |
| C80 | The regular expression of `data/iers.py` as fixed-width pieces, `install_polar_motion_table`, `polar_motion_angles`; `float()` is a parameter | matching by concatenation lemmas against a spec of the published columns; dating from C05's lemmas; interpolation lemmas of C13; chord bounds of rotations |
| C81 | The time code again with every floating point operation rounded by an arbitrary round-to-nearest of 53-bit significands (`FloatTime`) | error bounds from the half-unit lemma; exactness from representability; order from monotonicity of rounding; comparison with the exact results of C05 and C09 |
| C82 | `find_discrete` again with every operation rounded (`FloatSearch`) | error of one refined sample bounded by 2·10⁻⁹ days; widths halve up to that error, so 55 rounds suffice; brackets stay chained because their ends are reproduced exactly; non-termination from the spacing of floats |
| C83 | places as objects: `geographic_position_of`, `subpoint_of`, `Topos`, `terra`, `reverse_terra` (`Places`) | a latitude exists by the intermediate value theorem and is unique because the iteration converges to it; the remainder after three rounds is a multiple of the last change of the prime-vertical radius, bounded by its Lipschitz constants; text cases by list induction |
| C84 | the sexagesimal code of `units.py` again with every operation rounded (`FloatAngles`) | relative errors composed step by step; `fmod` of floats is exact; the digits typed are an integer number of last places and the accumulated error stays below half of one |
| C85 | threads as lists of steps: `reify` without a lock, the lock of `parse_leap_seconds` (`Threads`) | invariant over all schedules; each thread's remaining work decreases with each of its own steps; for the lock, the sum over threads decreases in every round |
| C86 | array branches of `elementslib`, `propagate` and `stumpff` on arrays (`Masks`, `ElementArrays`, `PropagateArrays`) | masked reads and writes of arrays that are maps of one list are maps of that list; the shared bisection loop by induction on rounds, finished entries being fixed points |
| C87 | `%`, `//`, the state codes and reduced angles with rounding (`FloatCodes`) | `fmod` of floats is a float; monotone rounding keeps remainders in the closed interval; spacing of floats below a float; the floats for pi and tau identified |
| C88 | NumPy shapes and broadcasting (`Broadcast`), star observation, separation and aberration on arrays (`StarArrays`) | the shapes reduce symbolically for every n and m; entries then agree with the scalar model; the failing shapes by arithmetic on axes |
| C89 | the constant matrices of `framelib.py` and `data/spice.py` | Taylor series of exp with remainder gives the defining cosines and sines to 2e-13; errors of matrix products bounded entry by entry |
| C90 | Arguments with shapes and integer/float entries, `_to_array`, `_reconcile` (with the identity of the returned objects), all constructors on arrays (`TimeBuild`) | one lemma for elementwise operations on numbers and arrays of one shape, composed through each constructor; negative results by evaluation for symbolic shapes. |
| C91 | `split`, `strip`, the two Stellarium parsers, the pattern built from the comet columns and its matching, the fixed columns of the slow reader, the columns kept from the star catalogues (`DataFiles`); `int()` and what pandas makes of the text are parameters or left out | induction over lines and words; matching piece by piece on records of the documented widths |
| C92 | segments of both types with jplephem's reader as a parameter, the printing of kernels and vector sums line by line, range errors, the table of names as a parameter, histories of `close` and `append` (`KernelFile`) | a reader of reports is the specification, induction over segments; dates through the civil calendar of C03 |
| C93 | `Angle.__str__`, `hstr`, `dstr` on values with a shape, the unit errors (`AngleText`) | evaluation on symbolic lists, induction over the rows; the text of one value is C25 |
| C94 | the three old files, `finals2000A.all` and the bundled arrays as sources, the choice between them, the construction of the timescale (`TimescaleFiles`); what Python accepts as a number is a parameter | formats as inductive predicates on lines; one lemma reads any text table row by row; C13 and C30 give the rest |
| C95 | the text of vectors, positions, satellites, orbits and stars as lists of characters (`Descriptions`); numbers inside come as text | induction over expressions with the invariant that names are those of the ends; texts are cut at characters that names cannot contain |
| C96 | a timescale with its two settings, the times made with it and the cached `utc` of each, as a state; a program is a list of uses (`Settings`) | induction over programs: what a time stored and what is cached stay; the last assignment is the cutoff |
| C97 | `julian_day` and `compute_calendar_date` with an arbitrary effect of the number type on each intermediate result (`MachineDates`); `int64`, `int32`, `int16`, `uint8`, `float64` as instances | each intermediate result is bounded, so the effect is the identity; then the exact theorems C01–C03 apply |
| C98 | the tables of a new loader, `urlparse(...).path.split('/')[-1]`, `path_to`, `load_file` (`DefaultLoader`) on top of `Loader` | `fnmatch` on the table's patterns is ‘begins with’ and ‘ends with’, `splitext` finds the extension; the general theorems C28 are then instantiated |
| C99 | `ProgressBar.report` and the calls `download` makes on it (`ProgressBar`), exact clock readings | induction over the blocks |
| C100 | `_to_altaz` with weather (`Horizon`), `GeographicPosition.refract`, with `latlon`, `hadec`, `lst_hours_at` of the other modules | the compass as derivatives of the place; tangent planes of an ellipsoid |
| C101 | `Distance.__str__`, `Velocity.__str__` and the reprs for one number (`DistanceText`); Python's float formatting with precision 6 is modelled from its documentation | a numeral reader and "nearest number of six digits" as specification; half-even rounding of the scaled number is nearest among integers, and numbers of finer scale lie below the leading power of ten |
| C102 | `osculating_elements_of` as a whole: GM, reference frame, units | equivariance of the eccentricity vector and invariance of the rest under isometries; scaling of the unit of time |
| C103 | the regular expressions that look at a format, the replacement of `%f`, and the left-to-right reading of the format by the C library (`TimeFormat`); what the library shows for one directive is a parameter | a format is specified as a list of pieces; induction over the pieces |
| C104 | both tables of masses, copied by a script, and the older `add_deflection` (`Masses`) | the tables are checked entry by entry by the kernel (they are finite, and checked whole); the rest for every body, ephemeris and observer; the grazing ray from `C43_deflection_size` with bounds on the tangent |
| C105 | `find_maxima` and `find_minima` again with every operation rounded (`FloatMaxima`) | the signs of differences do not change under rounding, so the same brackets are chosen; invariant on the spacing of the samples (none too close, the first two and those around the first drop not too far), kept by a round up to 8·10⁻⁹ days, so samples stay strictly increasing and 50 rounds suffice; a visible hill survives a round; the rounded middle of a level stretch is strictly between its ends because a sample in between is nearer |
| C106 | the multiplier tables of `data/nutation.npz`, copied row by row; `Time.gast` and `Time.gmst` on the `Time` of C11 | sine and cosine change by no more than their argument; amplitude times rate summed over both tables by kernel evaluation; the arguments' own polynomials by factoring differences; π to twenty decimals for the rounded arcsecond |
| C107 | the whole of `apparent()` as modelled for C43, with the masses of C104 | the angle at the deflector is at most the supplement of the elongation; induction over the deflectors with the triangle inequality on the sphere; an exact formula for the length after aberration; numeric bounds for the Earth |
| C108 | the ephemeris and the message that vector functions pass on, beside the vectors of C33 | structural recursion over vector functions and the lists in sums; last and first of appended lists |
| C109 | positions from right ascension and declination as objects with their default distances; stars (C69), places (C83) and separations (C79) as modelled there | the tangent to a ball seen from a point; a right triangle for equality; twenty digits of π for the gigaparsec; light-time difference bounded by the way moved |
| C110 | a `Time` without polar motion as its frames of date read it: TDB, IAU 2000A nutation from the bundled tables (C74), apparent sidereal time (C106); precession, nutation and place matrices as in C35 and C40 | matrices that move every vector little, closed under products and transposes; chords of turns; quintic polynomials bounded over sixty centuries; second-order Taylor remainder of a turn |
| C111 | the model of the direct searches (C65–C67), the target's place a function of time whose hour angle and lead change at a rate known to within ε | one step brings a time closer by the factor 2ε/(w−ε), or to a microsecond; the sampling gives a first guess within 0.8 days; mean value theorem for the hour angle at the horizon as a function of the declination; cosine equation for the equivalence with the altitude |
| C112 | `hadec()` (C49) at the frames of date a `Time` computes for itself (C110), sidereal time (C106) | the hour angle is sidereal time less right ascension (C49); a chord between two vectors bounds the difference of their longitudes; C106 for the sidereal time, C110 for the frame |
| C113 | the arrays of `data/iers.npz` and `data/delta_t.npz`, number by number (19,745 daily rows, 27 leap second dates, 58 historical cubics), through the loader of C27 and the builder of C13 | one pass of kernel evaluation over the daily table checks each row against its neighbour and against the leap second count; interpolation keeps a bound on slopes; `C13_steps_bounded` for the joins; the list of leap seconds announced is a specification of its own |
| C114 | `meridian_transits` as a function of the TT date that `find_discrete` hands it: the `Time` made from it, the shorter nutation series, the place's and the target's right ascension of date; the target's apparent position is a parameter | `C114_search`: with samples 0.4 days apart no two passages fall between samples, and a last bracket is wider than any jump; `C114_turning` feeds it the sidereal rate of C112, the clocks of C113 and the place's own right ascension |
| C115 | `find_discrete` over the search functions of `almanac.py` and `almanac_east_asia.py`, as functions of the TT date, with their steps; the apparent positions and altitudes are parameters | `C115_search`: the invariant that each moment lies in a bracket passes from samples to subdivisions; `C115_spells` for functions that are constant in spells, `C115_sectors`, `C115_sectors_shrinking` and `C115_upper_half` (intermediate values) for angles that grow, then one theorem for each almanac function; `C115_moon_conjunctions_missed` and `C115_short_spell_missed` show the conditions are needed |
| C116 | `find_maxima`, `find_minima`, the whole of `lunar_eclipses` and the culminations, risings and settings of `find_events`, on functions that rise and fall in turn | `Spread`: an invariant of the samples of each round (every top still bracketed by samples of even width, one bracket to a hill) passes from round to round; `uniform_finds`, then `C116_maxima`, `C116_maxima_rough`, `C116_minima`, `C116_lunar_eclipses` with the theorems of C48, `C116_culminations` with those of C67; `C116_passes` joins the two: the first event after and the last before each reported culmination are the real crossings of that hill; `C116_early_maximum_missed`, `C116_short_rise_missed` show that the margin and the two steps are needed |
| C117 | `find_discrete` over `sunrise_sunset`, `risings_and_settings` and `dark_twilight_day`, with the altitude that `altaz()` gives from the sky of each `Time` (shorter nutation series, built-in clock); the target's apparent position is a parameter | `Settles`: a condition that comes and goes in spells longer than the step, but may flicker for 1e-10 days when it changes; `C117_search`: its changes are found, each once; `C117_settles`: a turning hour angle within a drifting arc settles; `C117_sky_settles`: C112, C113 and `C100_hadec` make the computed altitude such a condition; then `C117_sunrise`, `C117_risings`, and `C117_twilight` from `C117_search_values` (functions with any values) |
| C118 | `find_discrete` over `seasons`, `solar_terms`, `moon_phases`, `moon_nodes` and `oppositions_conjunctions`, with the ecliptic of date computed from the sky of each `Time`; the bodies' apparent positions are parameters | `C118_parts_settle`: the part of the turn that a turning angle is in settles, in the sense of C117, also when the angle jitters; `C118_search`: so its passages are reported, all, once and in turn; `C118_fixed_direction`: precession and nutation change the longitude of a fixed direction by no more than 6.5e-6 radians a day (C110's bounds on the frames of date); then each search; for `moon_nodes`, `C118_fixed_latitude` and an orbit that crosses the ecliptic (`OrbitCrosses`), seen on the ecliptics of three dates (`crossing_returns`); the same for inner planets that go `ToAndFro` about the Sun |
| C119 | the steps of `download` (C25–C27), each with the file system calls it makes; what a disk keeps of the calls when the power fails: the directory in order, the data of each file up to any point, and (as a hypothesis) no renaming before the data of the file renamed | the calls of a download have one of five shapes (an invariant over executions); what is kept of each shape is worked out by induction on the writes |
| C120 | `find_discrete` (C15–C17, C115), run from a to b, from a to m and from m to b | each run reports the same kind of moments (C115); a report determines its moments, in order, so the two lists of events correspond one to one; `C120_short_spell` shows that the condition on spells is needed |

## What is modelled

| module `Verif/Model/` | code |
|---|---|
| `Calendar` | `julian_day`, `compute_calendar_date`, `julian_day_tuple`-style helpers of `timelib.py` |
| `Utc` | leap second tables, `Timescale._utc`, `Time._utc_tuple`, `utc_iso`, `utc_jpl`, `utc_datetime`, `strftime`, `toordinal` |
| `Datetimes` | `from_datetime(s)`, `utc()` arguments, `astimezone_and_leap_second`, datetime exceptions (Python's own `datetime` by its documented behaviour) |
| `TimeArith` | `Time` arithmetic and comparison, scale constructors and readers, `linspace` |
| `TimeFormat` | the text step of `strftime`: which unit a format shows, `%f`, the call of `time.strftime` |
| `Masses` | `GM_dict`, `rmasses`, `add_deflection` |
| `FloatTime` | the UTC, TT, calendar, `strftime`, comparison and arithmetic code of `Utc` and `TimeArith`, with rounding |
| `FloatSearch` | `find_discrete` and `_find_discrete` with rounding |
| `FloatMaxima` | `find_maxima` and `find_minima` with rounding |
| `FloatAngles`, `FloatCodes` | `_sexagesimalize_to_int`, `_sexagesimalize_to_float`, `_unsexagesimalize`, `wms`, `_sfmt` and the conversions of `Angle` in `units.py`; `%`, `//` and the state codes of `almanac.py`, in floating point (no overflow or underflow; `places` small enough that `10**places * 3600` fits 64 bits) |
| `SkyCoordinates`, `PolarMotion` | coordinates, rates, epochs of `positionlib.py`; `finals2000A.all` and polar motion |
| `Masks`, `ElementArrays`, `PropagateArrays` | array branches of `elementslib`, `stumpff`, `propagate` for one orbit and many times |
| `TimeArray`, `Reify`, `Threads` | `Time.__getitem__`, iteration, length, cached attributes; attributes read by several threads, the lock of `parse_leap_seconds` |
| `Tdb`, `DeltaT` | `tdb_minus_tt`; `Splines`, `DeltaT`, `build_delta_t`, `delta_t_parabola...` |
| `TimescaleData` | `data/iers.py` parsers after tokenising, `io_timescale.py` table building |
| `Search` | all of `searchlib.py` |
| `Units` | `units.py` conversions, sexagesimal code, formatting, preference checks |
| `Linear`, `Rotations`, `Spherical` | `functions.py`; `precessionlib.py`, nutation and bias matrices, `framelib.py`, spice frames |
| `Frames` | frame conversions of `positionlib.py`, `toposlib.py`, `planetarylib.py` |
| `Places` | `GeographicPosition`, `geographic_position_of`, `subpoint_of`, `Topos` of `toposlib.py`; `_ltude` of `units.py`; `terra`, `reverse_terra` of `earthlib.py` (Python's `float()` on text is a parameter) |
| `Nutation`, `NutationData`, `NutationTables`, `SiderealTime` | `nutationlib.py` with the amplitudes and multipliers of `data/nutation.npz`; `Time.gast`, `Time.gmst` |
| `EarthRotation` | sidereal time, Earth rotation angle, hour angles, refraction, `TEME_to_ITRF` |
| `Geometry`, `Geoid` | `geometry.py`, `is_sunlit`, `is_behind_earth`; `Geoid`, `latlon`, `subpoint` |
| `LightTime`, `Relativity` | `_correct_for_light_travel_time`; aberration, deflection, `apparent` |
| `Vectors` | vector functions of `vectorlib.py`, `SpiceKernel`, `Stack`, segments of `jpllib.py` |
| `Kepler`, `Propagate`, `Elements`, `ElementsOf`, `MinorPlanets` | `keplerlib.py`, `elementslib.py`, comet and minor planet orbits of `data/mpc.py` |
| `Almanac`, `RiseSet` | `almanac.py`, `eclipselib.py`, state function of `almanac_east_asia.py` |
| `Transits` | `meridian_transits` of `almanac.py`, with the sky of its own `Time` (no polar motion table) |
| `AlmanacSearch` | `seasons`, `moon_phases`, `moon_nodes`, `oppositions_conjunctions`, `sunrise_sunset`, `dark_twilight_day`, `risings_and_settings`, `solar_terms` as functions to search |
| `LunarSearch` | `lunar_eclipses` as a whole: the angle searched, the search, and the classification of what it finds |
| `Satellite`, `SatelliteEvents`, `SatelliteAltitude`, `SatelliteFixed`, `TleFile` | epochs, construction, `find_events` and TEME altitudes in `sgp4lib.py`; `parse_tle*` of `iokit.py` |
| `Download`, `Loader` | downloads, backups, `Loader` decisions of `iokit.py` |
| `TextPck` | `data/text_pck.py` |
| `Positions`, `PlanetaryFrames` | position objects of `positionlib.py`, kernels of `planetarylib.py` |
| `DataFiles` | `data/stellarium.py`; the text of the fields in the comet readers of `data/mpc.py`, `data/hipparcos.py`, `data/tycho2.py` |
| `VectorLabels` | the ephemeris and the message carried by vector functions, `vectorlib.py` 14, 90-95, 127-140, 153-165 |
| `RadecPositions` | `position_of_radec`, `position_from_radec`, `from_radec`, `positionlib.py` 22-65, 107-116 |
| `EarthOfDate` | what the frames of date read of a `Time` without a polar motion table, `timelib.py` 785-789, 855-863, `framelib.py` 51-63, 133-138 |
| `KernelFile` | `jpllib.py` 15-17, 69-137, 198-245, 285-295; `vectorlib.py` 207-213; `errors.py`; the look-ups of `naifcodes.py` |
| `AngleText` | `units.py` 333-348, 363-437, 447-458, 507-513 on arrays |
| `TimescaleFiles` | `Loader.timescale`, `io_timescale.py`, `julian_date`, `build_delta_t_table`, `rebuild_iers_npz` of the builders |
| `BuiltinTables`, `BuiltinTime` | `data/iers.npz` and `data/delta_t.npz`, copied number by number; the scale `Loader.timescale` builds of them |
| `Descriptions` | `__str__`, `__repr__`, `arrow_str`, `target_name`, `center_name`, `vector_name` of vectors, positions, satellites, orbits, stars; `_jpl_name` |
| `Settings` | assignment of `julian_calendar_cutoff`, `install_polar_motion_table`, `reify` on `Time.utc`, and the methods that read the settings |
| `MachineDates` | `julian_day`, `compute_calendar_date` in machine numbers (integer arrays of any width, whole `float64`) |
| `DefaultLoader` | the `urls`, `parsers` and `openers` of a new `Loader`, `_filename_of`, `Loader.path_to`, `Loader.download`, `load_file` |
| `ProgressBar` | `ProgressBar`, its calls in `download` |
| `ConstellationNames` | `load_constellation_names`, with the lines of its data file |
| `Horizon` | `_to_altaz` after the choice of rotation, `GeographicPosition.refract` |
| `OrbitFile` | `load_mpcorb_dataframe` of `data/mpc.py` and `mpcorb_orbit` on its rows (pandas' conversion of a field to a number is a parameter) |
| `DistanceText` | `units.py` 121-126, 176-182 for a single finite number (Python's `'{0:.6}'` formatting is trusted as modelled) |
| `Star`, `StarArrays`, `Broadcast`, `TimeBuild`, `Magnitude`, `PositionAngle` | `starlib.py` (with NumPy broadcasting), the constructors of `timelib.py` on arrays, `magnitudelib.py`, `trigonometry.py` |
| `Constellation`, `ConstellationData`, `Projection` | `constellationlib.py` with the bundled tables, `projections.py` |

## What is not modelled

* Floating-point rounding, except for times (C81), searches (C82, C105), sexagesimal angles (C84) and reduced angles with their codes (C87); overflow, subnormals and signed zeros everywhere; numpy dtypes; broadcasting except where C79 and C88 model it.
* The amplitudes of the nutation series are the bundled ones (C74), and so are their integer argument multipliers where they
  matter (C106); no claim is made that the tables are those of IAU 2000A. The frame theorems take the angles as given numbers.
* The sgp4 propagator and jplephem's Chebyshev evaluation are parameters (any function of time).
* what pandas makes of the text of a field (`hipparcos`, `tycho2`, `mpc`), `named_stars.py`, `__main__.py`,
  `naifcodes.py`, plotting helpers.
* HTTP, TLS and directory permissions: a download is a stream of chunks that may stop anywhere. Of power failures, those during downloads are modelled (C119), with directory
  changes reaching the disk in order.
* Python object identity, pickling; threads other than interleaved file-system steps (C26, C27), attribute reads and the
  leap second lock (C85); other threads that set the process locale themselves.

## Findings

Places where the code does not do what a user would expect, each either proved as a theorem about the
model or, where marked (reading), only seen in the source.

* `find_maxima` may miss a maximum shortly after the start or before the end, since its samples start `real_step` early but are not spaced by `step_days` (`C116_early_maximum_missed`),
  and one in the middle that ends a rise of more than 1.7 steps (`C116_short_rise_missed`).
* The pieces of the bundled historical ∆T table join only to a millisecond, so the exact joins that `C13_no_jumps` asks for are not there (`C13_steps_bounded`
  covers them), and UT1 runs backward by almost a millisecond at some of them, such as 1950.0 (`C113_ut1_steps_back`).
* `place - satellite` reports no error message although its positions are `nan` because of the satellite, and a negated vector forgets its ephemeris (C108_message_lost, C108_negated_ephemeris).
* Calendar: with an ancient Julian cutoff the two conversions disagree (`C03_ancient_cutoff_fails`); `toordinal` is
  not monotone over a leap second (`C06_toordinal_not_monotone`); `strftime` to the minute is not the nearest minute
  (`C08_strftime_minute_not_nearest`); weekday before JD 0 is wrong (`C09_weekday_wrong_before_jd_zero`); the TDB
  approximation leaves its stated bound for remote dates (`C12_not_for_all_dates`).
* `strftime` looks for `%f` with a regular expression that also matches inside `%%f`: `t.utc_strftime('%%f')` prints `%Z`
  (`C103_percent_f_wrong`); a second `%f` is not replaced (`C103_second_micro`); with `%r` the seconds shown are cut off, not rounded
  (`C103_r_cut_off`).
* `t.tt_strftime('%W')` and its siblings in TAI, TDB and UT1 print week `00` or `01` on every day of the year, because the day of the year
  is only worked out if the format has a `%j` (`C103_week_wrong`).
- C115: `oppositions_conjunctions` searches for the Moon in steps of up to 14 days.  When the Moon goes from conjunction to opposition, or back, in less than
  that — it can take as little as 13.9 days — both can fall between two samples and be missed (`C115_moon_conjunctions_missed`).
- C120: a search in one piece can find less than the same search in two: with a spell shorter than the step, at whose ends the value is the same, the whole finds nothing and
  each part finds a change (`C120_short_spell`).
- C104: `GM_dict` has a mass for Pluto's system that differs from the sum of its bodies by 0.14 % (`C104_systems`); `rmasses` has one for
  Pluto that is wrong by 0.47 %, and for the giant planets the mass of the whole system, put at the planet (`C104_reciprocal`).
* `find_transits`, `find_risings` and `find_settings` divide by the rate measured over the step just made and guard only against a step that is exactly zero: an hour angle that does not change over the step, as a rounded one may not, gives nan (`C111_rounded_angles_fail`).
* Search: `num=2` subdivisions never stops (`C17_two_subdivisions_never_stop`), `num=1` loses events
  (`C17_one_subdivision_loses_events`); `epsilon` of `find_maxima` is not honoured (`C18_epsilon_not_honoured`) and a
  plateau's value can be wrong (`C18_plateau_value`).
* Downloads: two concurrent processes can lose a backup (`C27_concurrent_loss`); there is no `fsync` before the
  renaming, so that on a disk that renames before it writes data a power failure after `download` has returned can leave an empty file where a good one was
  (`C119_renamed_before_data`), which every later `load` opens until a reload is asked for (`C119_empty_until_reload`); a bare `.bsp` name mutates the url table (reading).
* Text kernels: `+=` after a one-value `=` is dropped (`C53_scalar_extension_lost`); a tab after the name is an error
  (`C53_tab_refused`), and so is a one-letter name without a blank before `=` (`C53_one_letter_refused`).
* Bias matrix is only orthogonal to second order (`C35_bias_not_exact`); planet frame velocities lack the rotation
  term (`C38_planet_frame_velocity_lacks_rotation`); with polar motion loaded the ITRS velocity ignores it
  (`C38_polar_motion_velocity`, `C38_polar_motion_error`, `C38_polar_motion_velocity_differs`).
* Relativity: an observer at a deflector's center, or a deflector exactly on the sight line, gives nan
  (`C43_observer_at_deflector`, `C43_deflection_nan`).
* Kepler: only one side of the true-anomaly limit is checked (`C44_unchecked_side`); circular orbits are refused by
  the Kepler solver (`C58_circular_refused`); parabolas lack a square root (`C58_parabola_wrong`); the elliptic
  equation is used for e > 1 (`C58_hyperbola_equation`); `_from_true_anomaly` passes km³/s² as au³/d²
  (`C76_true_anomaly_units`); `propagate`'s doubling loop moves the brackets of all members of an array at once, which is harmless only because for one orbit no round can pass without an error (`C86_propagate`).
* Datetimes: `ts.utc([])` raises `IndexError` (part of `C78_utc_arguments`); February 29 of a leap year after 9999 is
  refused as a "Julian leap day" (`C78_wrong_complaint`); with a Julian cutoff, Python's Gregorian datetimes are read
  as Julian (`C78_julian_side`).
* `cirs_xyz`/`cirs_radec` document a float epoch but always raise `AttributeError` for it (`C79_cirs_float`);
  `ITRF_to_GCRS2(_high_accuracy=True)` spins Earth backwards if sidereal time wraps within the second
  (`C79_high_accuracy_wrap`); at the exact pole the latitude rate is reported as about 0 (`C79_guard`).
* `install_polar_motion_table` dates rows twelve days late if the timescale's calendar cutoff is later than the row
  (`C80_late_cutoff`).
* Rounding: in the last 40 microseconds of a day `tt_strftime` can print the next day's weekday and day of the year
  with the old date, which settles the TODO at timelib.py:229 (`C81_weekday_wrong`); `t.utc` can read second 60.0
  outside a leap second (`C81_second_sixty`).
* Comet designations with a number of 100 or more in the half month are refused by `unpack`
  (`C77_designation_hundred`).
* Elements: hyperbolic anomalies are wrapped into [-π, π), so far from periapsis the time of periapsis is wrong
  (`C64_hyperbola_wrong`, `C64_periapsis_time_not_always`); orbits with mean motion below 8.64e-15 rad/day are treated
  as parabolas; an array answers that there is no apoapsis for eccentricities in [1 - 1e-15, 1), a single state gives one
  (`C86_apoapsis`).
* `find_discrete` with an `epsilon` below 2⁻³¹ days never ends (`C82_too_fine_never_ends`); rounding makes refined samples
  overlap by up to 4·10⁻⁹ days, so events are placed to about that precision, not better.
* `reverse_terra` on the Earth's axis reports an elevation of minus the Earth's radius (`C83_reverse_terra_pole`); `Topos` refuses
  coordinates given as Python integers, though not floats (`C83_topos_refused`).
* Reducing an angle a rounding below zero gives the whole turn, so right ascensions of 24h and longitudes of 360° do occur
  (`C87_modulo_reaches`); `oppositions_conjunctions` can return the undocumented code 2 (`C87_conjunction_code_two`), for which
  `almanac.CONJUNCTIONS[2]` raises `IndexError`.
* Refraction does not end for absurd pressures (`C61_diverges`).
* `find_events`: a rising within half a second of its culmination can be reported on the same moment and listed after
  it (`C67_rising_listed_after_culmination`).
* `Star`: the reported velocity has the wrong sign, observer minus star (`C69_velocity_reversed`); a single star with
  parallax nan has a nan position, though a table of stars is treated as intended (`C69_single_unknown_parallax`); an
  epoch given as a `Time` is read in TT but compared with TDB: less than 2 ms of its motion (`C69_epoch_given_as_time`).
* An array of one star (a DataFrame of one row) observed at an array of one or of three times silently gives three wrong vectors
  (`C88_one_row_mixes_coordinates`, `C88_one_row_direction`); any other combination of an array of stars with an array of times raises
  ValueError (`C88_stars_at_times_raise`, `C88_one_row_raises`).
* Building times: `ts.tt_jd([2451545, 2451546], 0.25)` silently drops the quarter day because the array holds integers
  (`C90_integer_dates_drop_fraction`), `ts.tt_jd(2451545.5, [0, 1])` is half a day early (`C90_integer_fractions_drop_date`);
  `ts.J([2000, 2001])[0]` raises (`C90_julian_years_have_no_members`); a fraction array with more axes reshapes the caller's array of dates
  and leaves `Time.shape` different from the shape of `tt` (`C90_more_axes`); the time keeps the caller's array
  (`C90_keeps_callers_array`).
* Magnitudes: Uranus and Neptune jump by about 0.02 magnitude at their phase limits (`C70_jumps`); Saturn's limit of
  27° on ring opening is not in the documentation (part of `C70_unknown`).
* `position_angle_of` takes the longitude of `frame_latlon()` for an azimuth, so it runs towards west
  (`C71_latlon_mirrored`).
* Positions: negation keeps the class, so the reverse of a barycentric position is still an observer
  (`C72_negated_kind`), and with an unknown target it claims its old center (`C72_negated_unknown`); an element of an
  array of astrometric places has lost its observer, so `apparent()` raises `AttributeError`
  (`C72_index_forgets_observer`); the message for a missing horizon is never shown for integer centers
  (`C72_altaz_code`); `SSB.at(t)` has no barycentric observer (`C72_barycenter`); subtraction does not compare times
  (part of `C72_difference`).
* Planetary frames: only arcseconds are understood (`C73_other_units`), frames relative to fixed-offset frames are not
  (`C73_nested`), a definition with more angles than axes ignores the rest (`C73_more_angles`).
* `fundamental_arguments(t, terms=1)` uses all five terms, and `terms=0` four (`C74_one_term`); the default of 687
  luni-solar terms is more than the table's 678 rows (harmless).
* The documentation of `ICRS` says that its axes agree with J2000 to 0.02″; the first axis is off by 0.022″ (`C89_bias_of_first_axis`).
  `ecliptic_J2000_frame` uses the obliquity of 1976, 0.042″ more than the ecliptic of date at J2000 (`C89_obliquities`).
* Constellation: a point exactly on a right-ascension boundary goes to the lower cell (part of `C50_cell`).
* `find_transits` is a microsecond late (`C66_transits`) and gives nan when the search starts exactly on a transit
  (`C66_start_on_transit`); a target faster than a turn in 0.8 days is missed (`C65_fast_target_missed`).
* `from_satrec` ignores the timescale's calendar cutoff; slicing a `Time` drops `_tai_seconds`; `_to_altaz` uses
  `getattr` without a default (reading).
* `lunar_eclipses` allows for aberration in the search but not in the reported `closest_approach` (`C48_closest` has the bound).
* The slope at the right end of the Delta-T table divides by 365 rows of one day: for the old monthly `deltat.data` it is
  some thirty times too steep (`C13_recent_slope` gives the exact factor).
* `parse_star_names` splits the line at blanks first, so `71683|_("Rigil Kentaurus")` gives the name `Rigil` (`C91_star_name_cut`).
* `load_comets_dataframe` needs two blanks after the designation: a designation that fills its 56 columns makes the whole line the
  year of perihelion (`C91_comets_full_designation`), and two blanks inside one end it early (`C91_comets_two_blanks`); the slow reader is right in
  both cases (`C91_comets_slow`).
* Printing a kernel shows dates one day early when the Julian date has a fraction of one half or more, as in all JPL files: `de421.bsp` is said to
  begin on 1899-07-28, and begins on 1899-07-29 (`C92_report_date`); `EphemerisRangeError` has the right date (`C92_range_error`). Type 3 segments raise
  jplephem's `OutOfRangeError`, not `EphemerisRangeError` (`C92_range_error_type_3`).
* An `Angle` with an array of two axes cannot be printed (`C93_matrix`).
* A `deltat.data`, `deltat.preds` or `Leap_Second.dat` with one row cannot be used (`C94_single_row`); the three old files, if all there, are preferred to a newer
  `finals2000A.all` (`C94_old_files_come_first`, documented).
* A negated sum forgets the name of a place it ends at, and a printed sum with it does not lead on from line to line (`C95_negated_sum`); an orbit without a name is
  printed as `None` inside sums (`C95_nameless_orbit`).
* After `t.utc` has been read, setting `ts.julian_calendar_cutoff` changes what `t.utc_iso()` and the other methods say, but not `t.utc`: one time then shows two dates (`C96_stale`).
* Arrays of a narrow integer type passed to `ts.utc()` and the other constructors overflow without an error: `int16` dates are always wrong (`C97_int16_wrong`), and so is every `uint8` month but March and April (`C97_uint8_months`).
* `finals2000A.all` has an address in the loader's table, but `load('finals2000A.all')` refuses it (`C98_finals`).
* A server that answers with `content-length: 0` and then sends data makes `download` fail with a division by zero, reported as `IOError` — only when the bar is shown (`C99_zero_length`).

## Axioms

`#print axioms` for every theorem listed in MANIFEST.json (958 at the last run; regenerate by running it on
the names in the manifest):

* no axioms: `C03_ancient_cutoff_fails`, `C03_english`, `C03_papal`, `C108_ephemeris_own`, `C91_mpcorb_apart`.
* `propext`: `C108_difference_message`, `C108_message_lost`, `C108_negated_ephemeris`, `C108_negated_message`, `C33_neg_neg`, `C33_order`, `C33_refused`, `C52_single`, `C53_untouched`, `C72_altaz_code`, `C72_altaz_relative`, `C72_at`, `C72_index`, `C72_index_forgets_observer`, `C72_neg_neg`, `C72_negated_unknown`, `C85_locale`, `C98_paths`.
* `propext`, `Quot.sound`: `C04_day_overflow`, `C04_month_overflow`, `C103_pieces`, `C103_scale_text`, `C108_difference_ephemeris`, `C10_add_num`, `C10_diff`, `C10_eq`, `C10_sub_num`, `C10_tai_consistent`, `C11_jd_reads_back`, `C13_outside`, `C13_table_entry`, `C20_distance_init`, `C23_tuple`, `C28_first_rule`, `C29_names`, `C30_legacy_delta_t`, `C30_legacy_leaps`, `C32_covering_segment`, `C33_ends`, `C33_observer_gcrs`, `C33_value`, `C50_local`, `C50_total`, `C52_columns`, `C52_getitem`, `C52_history`, `C52_mask`, `C52_per_time`, `C53_one_letter_refused`, `C53_only_extended`, `C53_scalar_extension_lost`, `C53_tab_refused`, `C54_epoch_year`, `C54_target`, `C67_refused`, `C72_negated_kind`, `C72_observer_kept`, `C78_list`, `C78_utc_arguments`, `C80_short_line`, `C80_table_rows`, `C85_values`, `C91_constellation_left_over`, `C91_constellations`, `C91_mpcorb_fields`, `C92_open`, `C96_cutoff`, `C96_times_stay`, `C97_int32`, `C97_int64`, `C97_julian_day`, `C97_signed`.
* `propext`, `Classical.choice`, `Quot.sound`: all the others.
