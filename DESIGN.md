# A machine-checked model of astronomia

`/repo` (timcera/astronomia, Python) is modelled in Lean 4 under `lean/Verif`.
`properties.jsonl` lists the properties (C01, C02, ...), `MANIFEST.json` maps
them to theorems, `seeded/LOG.jsonl` records the mutation experiments.

## Layout

* `Verif/Model/*`  - the model of the code, one definition per function, each
  with the file and lines it models and the simplifications made.
* `Verif/Spec/*`   - small independent specifications (civil calendar by
  counting days, ecclesiastical Easter, rotations of vectors, ...).
* `Verif/Lemmas/*` - auxiliary lemmas.
* `Verif/Props/*`  - the property theorems and the examples showing that their
  hypotheses are met (`CalendarCases` and `SkyCases` hold such examples for C01-C50,
  the former with the binary64 rounding `rne`).
* `Verif/Data/*`   - numeric tables generated from the text of `/repo` by
  `tools/gen_*.py` (parsed with `ast`, never executed).

## Numbers

* *Calendar arithmetic.* Every float operation is modelled as `fl (a op b)` on
  rationals, where `fl` is a parameter. `Rounding fl` says that `fl` rounds to
  a nearest binary64 number (any tie rule; no overflow, nan or signed zero) and
  `fl = id` is exact arithmetic. Both satisfy `FloatLike fl`, which is the
  hypothesis of the calendar theorems. So they hold for the IEEE arithmetic
  that numpy uses and for exact arithmetic. Integer casts `astype("i")` give
  the bound 2^31 on years.
* *Trigonometric part.* Modelled over the real numbers with Mathlib's `sin`,
  `cos`, `arcsin`, `Complex.arg` (for `arctan2`) and `π`; decimal literals are
  taken exactly. `Model/FloatTrig.lean` models parts of it a second time in
  binary64, with the library functions (`np.cos`, `np.sum`) as parameters; the
  theorems bound the distance to the real model under the hypotheses `CosLike`
  (error at most 2^-50) and `SumLike` (some order of additions), collected with
  those on sine and tangent in `NumLib.Good`.
* `x % y` is Python's/numpy's floor modulo.

## Exceptions, arrays, state

Exceptions are values of `Except PyErr`. 1-D arrays are lists with numpy's
length-one broadcasting. Module-level state (`globals.py`, `VSOP87d` class
attribute) is an explicit state record passed through.

## Plan per property

| id | what is modelled | how proved |
|----|------------------|------------|
| C01-C05 | cal_to_jd, jd_to_cal with `fl` | Spec: Julian Day by summing year/month lengths. Truncations shown exact from the margins to the next integer; exceptional dates proved to be exactly those (witness theorems for the failures) |
| C06 | list versions with masks and broadcasting | induction on lists |
| C07 | is_leap_year (fmod) | arithmetic |
| C08-C09 | both day-of-year functions with `fl` | truncation margins, case split on the month |
| C10 | jd_to_day_of_week | floor-mod arithmetic |
| C11-C14 | easter | arithmetic reduction to residues; finite residues checked by the kernel; spec = tabular computus |
| C15-C16 | frac_yr_to_jd, yr_frac_mon_to_jd | reduces to C01 |
| C17-C18 | hms functions with `fl` | error analysis; concrete IEEE counterexample |
| C19 | cal_to_jde | direct, with `fl` |
| C20-C21 | lt_to_str, is_dst, ut_to_lt | string model; failure theorem for all inputs |
| C22 | sidereal time over the reals | ring identities, floor modulo |
| C23-C29 | util.py functions | reals (and `fl` for C23, C29) |
| C30-C31 | load_params as a token machine over a settings record | induction on token lists |
| C32-C34 | ΔT table (all rows, generated) and the polynomials | sortedness by kernel evaluation of the whole table; bisect by induction |
| C35-C37 | coordinate functions over the reals | `Complex.arg` lemmas |
| C38 | ell_to_geo | real algebra |
| C39-C41 | Poisson series and all generated VSOP tables | list sums; bounds by summing absolute values, whole-table kernel evaluation |
| C42-C46 | sun, nutation, lunar | as above |
| C47 | equinox_approx tables | polynomial bounds over the interval, whole table |
| C48 | equinox loop | contraction argument using derivative bounds of the VSOP series |
| C49-C53 | loops of planets.py and riseset.py | loop invariants over an abstract ephemeris and the concrete one |
| C54-C55 | cronus queue as a multiset of tasks, any tie-breaking | invariant by induction on the number of steps |
| C56 | class attribute loading | induction on histories |
| C57-C58 | CGI scripts | total functions from forms to outcomes |

| C59-C60 | choice of the file and lexer of load_params | list of candidates; induction on the text |
| C61-C65 | derivatives of the series, mean arguments, dates of the seasons, Moon's altitude | interval bounds by whole-table kernel evaluation; real analysis |
| C66-C68 | heapq as CPython's array heap, the cronus loop | heap invariant; invariant of the run by induction on steps |
| C69-C70 | apps/solstice.py, sun.rise | exact page; failure theorems; repaired version |
| C71 | the places of Sun, Moon and planets in cronus | rotation theorems; main term of the nutation |
| C72 | rates of the Moon, returns, phases, nodes and apsides | Lipschitz bounds of the series, intermediate value theorem |
| C73 | elongation of Mercury and Venus | triangle Sun, Earth, planet; light time and aberration bounded |
| C74 | periods of the planets, synodic periods, order of speeds | sums of the tables by `decide +kernel`, intermediate value theorem |
| C75 | VSOP87d.dimension in binary64 | running error analysis; sums over the tables by `decide +kernel` |
| C76 | equinox in binary64 | error analysis of nutation, aberration and FK5; contraction with an error term |
| C77 | equinox_approx and equinox from it in binary64 | Horner errors with general coefficients; C64 and C76 |
| C78 | the Moon in binary64 | errors of the mean angles, of every row and of the sums over the tables |
| C79 | coordinate transformations in binary64 | errors of directions, of `arctan2` and `arcsin`; a correctly rounded example with nan |
| C80 | `geocentric_planet` in binary64 | offset vector to 2.43e-9, contraction of the light-time loop with rounding noise, `diff_angle` near whole turns |
| C81 | `jd_to_jcent` | exact difference, one rounding |
| C82 | `easter` for float years | all intermediate values are whole numbers below 2^53 |
| C83 | `sidereal_time_greenwich` in binary64 | running error analysis |
| C84 | `transit` in binary64 | the contraction of C52 with rounding noise of 9e-15 a pass |
| C85 | `_riseset` in binary64 | the contraction of C53 with rounding noise; `arccos` of the first estimate |
| C86 | array arguments, operation by operation on NumPy values (`Model/Numpy.lean`) | a relation between a NumPy value and the numbers it broadcasts to, kept by every operation |
| C87 | the remaining functions in binary64 (`Model/FloatMisc.lean`) | Horner's scheme with a bound and an error for every coefficient; square roots by their relative error |
| C88 | the published check values (`Spec/Vsop87Chk.lean`) | a cosine in natural numbers with a proved error (`Lemmas/CosNat.lean`), run by the kernel over all rows |
| C89 | `equinox_approx` is within 2.16 minutes (its docstring) | waves of 1024 years at once in packed natural numbers (`Lemmas/Lane*.lean`), run by the kernel over 16 blocks (`Lemmas/EqBlock/`); single points with all terms (`Lemmas/Point*.lean`) for the 97 largest errors; then existence of events as in C64 |
| C90 | published equinoxes and solstices are met to a second | longitude of the Sun at the published times (`Lemmas/EqPublished.lean`, single points as in C89), then convergence of C48/C76 |
| C91 | published Sun, Moon, nutation and mean elements are met to the printed digits | kernel evaluation of the series at the published times with rational sines and cosines (`Lemmas/PointMoon.lean`, `MoonPublished.lean`, `SunPublished.lean`), float theorems of C77-C86 on top |
| C92 | array arguments of the Moon, the nutation, sidereal time, Delta T and `equinox` (`Model/NumpyMoon.lean`) | a sum over a table of arrays is an array of sums; the in-place update of `equinox` is modelled by reading `jd0` after it; the wrong result is shown from the published times of C90 without evaluating a series |
| C93 | `util.py` in binary64 for all arguments (`Model/FloatUtil.lean`) | induction over the coefficients for Horner's rule with the factor (1+u)² of a step; two roundings and the error of `pi` for the conversions; ends of the range of `diff_angle` by monotony of the rounding, as `pi` and `pi2` are floats; a chain of bounds for `interpolate3` |
| C94 | `apps/check_perihelion.py` (`Model/CheckPerihelion.lean`) | the 48 distances are enclosed by the kernel evaluation of the series, moved to the float times by the bound of the speed, and the rounding errors added (C75) |
| C95 | the lines of the seasons in cronus | invariant by induction on the steps: lines displayed and waiting together are those of the years computed, one task for each season waits |
| C96 | ΔT in binary64 at all times | running error through the Horner schemes of all branches; the branch is the same as the date is exact; the values of the tests checked exactly by the kernel and carried over |
| C97 | published places of Venus and Pollux, published sidereal times | tables evaluated by the kernel at two instants near the date and at the emission; contraction of the light time step; the second pass does not end the loop and the third does; products of sines as sums, evaluated in natural numbers |
| C98 | the FK5 reduction is a rotation | specification: vector product with a rotation vector (Spec/Fk5.lean); tangent lines of sine and cosine with remainder; Lagrange's identity |
| C99 | light-time and aberration of the planets | specification with three times (Spec/Aberration.lean): intermediate value theorem and contraction for the time of emission; exact identity for the displacement; C98 for the FK5 part |
| C100 | aberration of the Sun | split of the series of the Earth into annual and half-annual terms and a rest bounded by the kernel; tangent of the main terms; the annual terms of the rate and of the square of the distance cancel (conservation of areas) |
| C101 | accuracy of the low precision Sun | annual and half-annual terms of the series matched as waves with polynomial amplitude and phase; the rest bounded by the kernel; the distance by expanding the ellipse to second order; one evaluation of the series for the counterexample |
| C102 | the Sun interpolated from three daily places | three derivatives of the Poisson series bounded by the kernel; Taylor expansion of second order, composed with the formulas for right ascension and declination; intermediate value theorem for the events |
| C103 | the Moon interpolated from three daily places | kernel evaluation of the series of the Moon and the nutation at four times; monotonicity of the arcsine |
| C104 | how inaccurate the interpolation of the Moon is | three derivatives of the series of the Moon as sums of waves, bounded by the kernel; third derivatives of right ascension and declination as functions of the ecliptic path; Taylor expansion of second order |
| C105 | the transit lines of cronus | induction on the objects of the table; C102 and C104 for what the lines say; error bound of `dt_to_ut` |
| C106 | `devutils/create_text_vsop_db.py` (`Model/CreateDb.lean`, format of the files in `Spec/VsopFile.lean`) | induction on the records of a file |
| C107 | `riseset.py` `transit`, `planets.py` `geocentric_planet`, `cronus.py` | bounds on the second differences of the series (`Lemmas/SecondDiff`, `PlanetPace`, `PlanetDay`), then C52 |
| C108 | `riseset.py` `_riseset`, `cronus.py` | discrete intermediate values of the sidereal time and of the longitude of the Moon (`Lemmas/MoonRise`); C68 for the days of a run |
| C109 | `riseset.py` `transit`, `util.py` `interpolate_angle3`, `planets.py` `geocentric_planet`, `cronus.py` | distance from the chord (`Lemmas/SecondDiff`, `PlanetPace`), argument of a point near a line (`Lemmas/ArgChord`, `PlanetDay`), then C107 |

## What is modelled

| file | model | not modelled |
|------|-------|--------------|
| `calendar.py` | `Model/Calendar.lean`: every function except `sidereal_time_greenwich`, which is in `Model/Util.lean` over the reals | nothing (`easter` for float years is in `Model/FloatEaster.lean`) |
| `util.py` | `Model/Util.lean`, `Model/Params.lean` | |
| `dynamical.py` | `Model/Dynamical.lean`, whole table in `Data/DeltaT.lean` | |
| `coordinates.py`, `commonterms.py`, `constants.py` | `Model/Coordinates.lean`, `Model/Lunar.lean` | |
| `nutation.py` | `Model/Nutation.lean`, table in `Data/Nutation.lean` | |
| `planets.py`, `vsop87d_dict.py` | `Model/Planets.lean`, `Model/Geocentric.lean`, all tables in `Data/Vsop` | |
| `sun.py` | `Model/Sun.lean`, `Model/SunRise.lean` | |
| `lunar.py` | `Model/Lunar.lean`, tables in `Data/Lunar.lean` | |
| `equinox.py` | `Model/Equinox.lean`, tables in `Data/Equinox.lean` | |
| `riseset.py` | `Model/RiseSet.lean` | |
| `globals.py` | the settings record of `Model/Params.lean`; `Zones` | |
| `apps/cronus.py` (and CPython's `heapq`) | `Model/Heap.lean`, `Model/Cronus.lean` | argument parsing by `cltoolbox` |
| `apps/check_perihelion.py` | `Model/CheckPerihelion.lean` | the format of the numbers printed |
| `apps/solstice.py` | `Model/Cgi.lean` | argument parsing by `cltoolbox` |
| `devutils/create_text_vsop_db.py` | `Model/CreateDb.lean` | digits and blanks outside ASCII |
| `cgi/*.py` | `Model/Cgi.lean`: every line printed | the `cgi` module itself: a form is a list of fields |

Not modelled at all:

* `astronomia.py`: two unfinished commands without a result (one ends in
  `# Finish!!!!!`, the other computes coordinates and drops them).
* The other two programs of `devutils/` (they import from `astronomia.vsop87d`, a module which does not exist, so they end with
  ModuleNotFoundError before doing anything), `docs/`, `tests/` (but the check values in `tests/vsop87.chk` are the specification of C88, the table in
  `tests/test_equinox.py` that of C90, the values in `tests/test_dynamical.py` that of C96 and the published examples in the
  other tests those of C91 and C97).
* Overflow, nan, infinities, negative zero; numpy dtypes other than the ones
  mentioned in the comments; arrays of more than one dimension.
* Floating point rounding in the trigonometric part, other than in
  `VSOP87d.dimension` (C75), the nutation, `equinox` (C76), `equinox_approx` (C77), the
  Moon (C78), the coordinate transformations (C79), `geocentric_planet` (C80), sidereal
  time (C83), `transit` (C84), `_riseset` (C85), the obliquity, the mean and low
  precision Sun, `ell_to_geo` and `moon_rst_altitude` (C87): what is left are `cronus.py`
  and `sun.rise`, which only call these.
* The operating system's time zone database (`time.localtime`), which is an
  arbitrary function parameter.
* Memory and time limits; Python's limit of 4300 digits in `int(str)`.

## Properties which are false of the code

Where the code contradicts its documentation or what a user expects, the
negation is a theorem with a witness (or for all inputs), and what remains true
is proved beside it.

| code | what is wrong | theorem |
|------|---------------|---------|
| `calendar.cal_to_jd` | Gregorian dates from 1 March of a negative century year not divisible by 400 to the end of the next February are one day late; two dates get the same number | `cal_to_jd_counts_days`, `cal_to_jd_not_injective` |
| | an instant after midnight on the last day of a month is refused | `cal_to_jd_refuses_last_day_fraction` |
| | negative fractional years are not refused | `cal_to_jd_accepts_negative_fractional_year` |
| `calendar.jd_to_cal` | 1 March of the years 300, -100, -500, ... is reported as 29 February | `jd_to_cal_cal_to_jd_bad` |
| `calendar.frac_yr_to_jd`, `yr_frac_mon_to_jd` | the calendar argument is ignored; negative fractional years are inconsistent | `frac_yr_to_jd_ignores_calendar`, `yr_frac_mon_to_jd_ignores_calendar`, `frac_yr_to_jd_negative_inconsistent`, `february_of_bad_century` |
| `calendar.day_of_year_to_cal` | a fractional day number can give day 0 of a month | `day_of_year_to_cal_fraction` |
| `calendar.fday_to_hms` | loses a second in binary64 | `hms_round_trip_fails` |
| `calendar.cal_to_jde` | hours, minutes and seconds are not checked | `cal_to_jde_no_time_check` |
| `calendar.lt_to_str` | minutes are printed as floats (`12:0.0:00`) | `lt_to_str_float_minutes` |
| `calendar.is_dst`, `ut_to_lt` | raise for every input | `is_dst_never_returns`, `is_dst_type_error`, `ut_to_lt_never_returns` |
| `util.mod360` | returns 360 for tiny negative floats | `mod360_upper_end` |
| `util.dms_to_d` | refuses arrays | `dms_to_d_refuses_arrays` |
| `util.interpolate_angle3` | wrong for a large second difference | `interpolate_angle3_large_second_difference` |
| `util.load_params` | a comment glued to a word joins two words; a missing file named by the environment is passed over; `+` is refused | `lex_comment_joins`, `load_params_ignores_missing_env`, `load_params_plus_sign` |
| `dynamical.deltaT_seconds` | jumps by 24 s in 1621 and at the end of the table, so that `dt_to_ut` reverses the order there | `deltaT_jump_1621`, `dt_to_ut_decreases_1621`, `dt_to_ut_decreases_2030` |
| `coordinates.equ_to_ecl` | southern latitudes come back increased by a turn | `equ_to_ecl_south` |
| `coordinates.equ_to_horiz` | the altitude of a star in the zenith can be nan in binary64 | `equ_to_horiz_zenith_nan` |
| `coordinates.ell_to_geo` | mixes units | `ell_to_geo_wrong_unit` |
| `commonterms.ko` | sign of the last coefficient | `lunar_node_inconsistent` |
| `sun.longitude_radius_low` | double sign in the equation of the centre | `equation_of_center_sign` |
| `sun.longitude_radius_low` | documented "accurate to 0.01 degree"; 0.01025 degree off on 2061 May 13 | `low_longitude_documented_accuracy_false` |
| `sun.rise` | raises for every input | `sun_rise_raises` |
| `lunar.Lunar` | the longitude is not reduced | `lunar_longitude_negative` |
| `planets.VSOP87d.dimension` | sums over the time axis for arrays | `vsop_dimension_repeated`, `vsop_dimension_array_wrong` |
| `planets.geocentric_planet` | accepts the Earth; a coarse precision disables the light-time | `geocentric_earth`, `geocentric_coarse` |
| `planets.geocentric_planet` | raises for every array of times | `geocentric_planet_arrays_refused` |
| `equinox.equinox` | an array of one time gives the result of a single pass, wrong by more than a day | `equinox_one_array`, `equinox_one_array_wrong` |
| `equinox._approx_1000` | sign typo: 42 s jump at year 1000 | `equinox_tables_meet` |
| `riseset.transit` | drops events at the end of the day, refuses valid input in the east | `transit_dropped`, `transit_refuses` |
| `riseset.rise`, `settime` | never return a value | `rise_returns_none`, `settime_returns_none`, `rise_discards` |
| `riseset._riseset` | refuses a rising at Greenwich | `riseset_refuses` |
| `apps/cronus.py` | the nutation of the Moon is counted twice | `moon_place_nutation_twice`, `moon_place_off_j2000` |
| `apps/cronus.py` | the stop year is compared with Julian Days; every run raises; transits are displayed late; no rising is ever shown | `cronus_stop_is_jd`, `cronus_no_stop`, `cronus_always_raises`, `cronus_out_of_order`, `cronus_transits_late`, `cronus_no_risings` |
| `apps/cronus.py` | transits are in universal time, but `dt_to_ut` is applied to them: the times displayed are early by more than a minute | `cronus_sun_line`, `cronus_moon_line`, `cronus_sun_line_2000` |
| `riseset.py` `_riseset`, `apps/cronus.py` | the first estimate is reduced by one turn at most: `rise` raises for the Moon at least once in 400 days, and no run gets further | `moon_rise_raises`, `cronus_days_end`, `cronus_never_ends` |
| `apps/solstice.py` | raises at the first season | `solstice_raises` |
| `calendar.easter` | a fraction of a year gives wrong dates | `easter_fraction` |
| `cgi/easter_cgi.py` | the dates are never shown (missing `f` prefix) | `easter_cgi_no_date`, `easter_cgi_constant` |
| `cgi/solstice_cgi.py` | the default form is refused; no cell is ever shown | `solstice_cgi_default`, `solstice_cgi_raises` |
| `devutils/create_text_vsop_db.py` | calls `string.strip`, which Python 3 does not have: no term is ever printed | `create_text_no_term`, `create_text_python3` |

## Trusted base

* The Lean 4.33.0 kernel.
* The axioms `propext`, `Classical.choice`, `Quot.sound` and no others.
  `AXIOMS.txt` lists the axioms of each theorem named in the manifest
  (`tools/axioms.py` writes it from `#print axioms`).  No `sorry`,
  `native_decide` or `bv_decide` is used.
* Mathlib's definitions of the real functions.
* The transcription of the Python text into `Verif/Model`, and the table
  generators `tools/gen_*.py`, which parse the text of `/repo` with `ast`.
* The description of binary64 in `Model/Float.lean` (`Rounding`), of numpy's
  casts in `Model/Py.lean`, of CPython's `heapq` in `Model/Heap.lean`.

## Mutation experiments

`seeded/LOG.jsonl` has one line for each wrong program tried: the definition
edited in a scratch copy, the edit, the claim it breaks, the theorems which then
failed to build and the theorems tightened when none did.
