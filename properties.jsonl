{"id": "C01", "title": "cal_to_jd counts days", "statement": "For a valid civil date (year, month, whole day) in either calendar, cal_to_jd returns the number of days elapsed since Julian-calendar noon 1 January -4712 (minus one half, i.e. 0h), where the Gregorian calendar is anchored by '15 October 1582 Gregorian follows 4 October 1582 Julian'. The exceptions are exactly the Gregorian dates from 1 March of a negative century year not divisible by 400 to the end of the following February, where the code is one day too large. For a fractional day the result is the whole-day result plus the fraction, up to float rounding.", "quantifier": "every calendar flag, every valid date from year -4712 up to the int32 limit the code imposes, every rounding function of binary64", "why_tests_cant": "the domain is unbounded in the year and the float truncations could go wrong at isolated dates; the tests check four dates", "anchors": ["src/astronomia/calendar.py:cal_to_jd"]}
{"id": "C02", "title": "cal_to_jd accepts exactly the calendar dates", "statement": "cal_to_jd(year, month, day, gregorian) with integer year and month raises ValueError exactly when the month is not in 1..12 or the day is not between 1 and the length of that month in that calendar, and returns otherwise. (Consequently a fractional instant on the last day of a month, e.g. 31.5 January, is refused.) A positive fractional year or a fractional month is refused; a negative fractional year is not.", "quantifier": "every year, month and (possibly fractional) day", "why_tests_cant": "leap rule, month table and both calendars interact; three rejection examples are tested", "anchors": ["src/astronomia/calendar.py:cal_to_jd", "src/astronomia/calendar.py:_extracted_from_cal_to_jd_21"]}
{"id": "C03", "title": "jd_to_cal returns the civil date of the day", "statement": "For every non-negative Julian Day, jd_to_cal returns a valid date of the requested calendar whose day count (see C01) is that Julian Day, with the fraction of the day elapsed since midnight added to the day. The only exceptions are, in the Gregorian calendar, the days 1 March of years 300, -100, -500, ... which are reported as 29 February of a non-leap year.", "quantifier": "every Julian Day >= 0, both calendars, every rounding function of binary64", "why_tests_cant": "an error confined to one day in 146097 is invisible to sampling", "anchors": ["src/astronomia/calendar.py:jd_to_cal"]}
{"id": "C04", "title": "calendar round trips", "statement": "jd_to_cal(cal_to_jd(d)) = d for every valid date d, and cal_to_jd(jd_to_cal(jd)) = jd for every Julian Day whose date is accepted by cal_to_jd, outside the exceptional dates of C01/C03.", "quantifier": "all dates / all Julian Days, both calendars", "why_tests_cant": "needs all dates at once", "anchors": ["src/astronomia/calendar.py:cal_to_jd", "src/astronomia/calendar.py:jd_to_cal"]}
{"id": "C05", "title": "cal_to_jd preserves the order of dates", "statement": "A later date has a strictly larger Julian Day, and the next calendar day is exactly one day later. Fails in the code only at the exceptional Gregorian dates of C01: e.g. 28 February and 1 March -99 get the same Julian Day.", "quantifier": "all pairs of valid dates", "why_tests_cant": "a statement about pairs of dates over an unbounded range", "anchors": ["src/astronomia/calendar.py:cal_to_jd"]}
{"id": "C06", "title": "array calls are elementwise", "statement": "Calling cal_to_jd, jd_to_cal, is_leap_year, easter, jd_to_day_of_week, cal_to_day_of_year or day_of_year_to_cal with arrays (with length-one broadcasting) returns exactly the list of the scalar results, raises exactly when some element would raise, and a one-element array gives a plain scalar.", "quantifier": "all array lengths and contents", "why_tests_cant": "unbounded lengths and mixtures of branches under masks", "anchors": ["src/astronomia/calendar.py", "src/astronomia/util.py:_scalar_if_one"]}
{"id": "C07", "title": "leap year rule", "statement": "is_leap_year(y, True) is true iff 4 divides y and (100 does not divide y or 400 divides y); is_leap_year(y, False) iff 4 divides y; for negative years too.", "quantifier": "every integer year", "why_tests_cant": "np.fmod on negative operands keeps the sign; unbounded domain", "anchors": ["src/astronomia/calendar.py:is_leap_year"]}
{"id": "C08", "title": "day of year", "statement": "cal_to_day_of_year(y,m,d,g) is the position of the date in its year: the number of days in the preceding months plus d; it equals cal_to_jd(y,m,d,g) - cal_to_jd(y,1,1,g) + 1 wherever cal_to_jd counts correctly; it lies in 1..365 or 1..366.", "quantifier": "every valid date, both calendars, every rounding", "why_tests_cant": "closed formula with float truncations over all months and years", "anchors": ["src/astronomia/calendar.py:cal_to_day_of_year"]}
{"id": "C09", "title": "day of year inverse", "statement": "day_of_year_to_cal(y, n, g) returns the unique valid (month, day) whose day of year is n, for 1 <= n <= length of the year; and it inverts cal_to_day_of_year.", "quantifier": "every year, every day number of the year, both calendars, every rounding", "why_tests_cant": "an off by one in a single month of leap years only would escape the single tested value", "anchors": ["src/astronomia/calendar.py:day_of_year_to_cal", "src/astronomia/calendar.py:cal_to_day_of_year"]}
{"id": "C10", "title": "day of week", "statement": "jd_to_day_of_week is in 0..6, advances by one modulo 7 from one day to the next, has period 7, is constant during a civil day, and is 6 (Saturday) for 1 January 2000.", "quantifier": "every non-negative Julian Day", "why_tests_cant": "periodicity over an unbounded range", "anchors": ["src/astronomia/calendar.py:jd_to_day_of_week"]}
{"id": "C11", "title": "Easter is a Sunday in its window", "statement": "easter(year) returns a (month, day) between 22 March and 25 April, which is a valid date and a Sunday of that year in the chosen calendar (as computed by cal_to_jd and jd_to_day_of_week).", "quantifier": "every year, both calendars", "why_tests_cant": "5,700,000-year cycle; six years are tested", "anchors": ["src/astronomia/calendar.py:easter"]}
{"id": "C12", "title": "Gregorian Easter is the ecclesiastical Easter", "statement": "easter(year, True) is the first Sunday strictly after the ecclesiastical paschal full moon determined by golden number, century solar and lunar corrections and the epact rule of the Gregorian reform.", "quantifier": "every year", "why_tests_cant": "the correction terms change only every few centuries", "anchors": ["src/astronomia/calendar.py:easter"]}
{"id": "C13", "title": "Julian Easter is the Alexandrian Easter", "statement": "easter(year, False) is the first Sunday (in the Julian calendar) strictly after the paschal full moon of the 19-year Alexandrian cycle, and the dates repeat after 532 years, every period being a multiple of 532.", "quantifier": "every year", "why_tests_cant": "532-year cycle", "anchors": ["src/astronomia/calendar.py:easter"]}
{"id": "C14", "title": "Gregorian Easter period", "statement": "The Gregorian Easter dates repeat every 5,700,000 years, and every period is a multiple of that.", "quantifier": "every year", "why_tests_cant": "enumerating the period is not a unit test", "anchors": ["src/astronomia/calendar.py:easter"]}
{"id": "C15", "title": "fractional year", "statement": "frac_yr_to_jd(y + f), 0 <= f < 1, y >= 0, is the Julian Day of 1 January of year y plus f times the length of that year; in exact arithmetic it is strictly increasing, at between 365 and 366 days per year also across year boundaries; in binary64 it is non-decreasing. The gregorian argument has no effect (Julian calendar requests get the Gregorian answer).", "quantifier": "all years from 0 to the int32 limit and all fractions; every rounding", "why_tests_cant": "all fractions", "anchors": ["src/astronomia/calendar.py:frac_yr_to_jd"]}
{"id": "C16", "title": "fractional month", "statement": "yr_frac_mon_to_jd(y, m + f) is the Julian Day of the first of month m plus f times the length of that month, including December/January rollover. The gregorian argument has no effect. Before Christ the exceptional dates of cal_to_jd (C01) show: from March of a negative century year that is not a leap year to the following February the result is a day too large, the February of that year is counted with 29 days and the one after it with 27.", "quantifier": "all years from -4712 to the int32 limit, all months and fractions; every rounding", "why_tests_cant": "all fractions, December rollover mask", "anchors": ["src/astronomia/calendar.py:yr_frac_mon_to_jd"]}
{"id": "C17", "title": "h/m/s round trip", "statement": "fday_to_hms(hms_to_fday(h,m,s)) = (h,m,s) for 0<=h<24, 0<=m<60, 0<=s<60 in exact arithmetic; in binary64 the result may be one second short, and never differs by more than that.", "quantifier": "all times of day, every rounding", "why_tests_cant": "86400 inputs and the float error analysis", "anchors": ["src/astronomia/calendar.py:hms_to_fday", "src/astronomia/calendar.py:fday_to_hms"]}
{"id": "C18", "title": "fday_to_hms range", "statement": "For every day value d >= 0, fday_to_hms(d) has 0<=h<=23, 0<=m<=59, 0<=s<=59 and h:m:s is at most one second before the exact time of day.", "quantifier": "every non-negative float", "why_tests_cant": "all floats", "anchors": ["src/astronomia/calendar.py:fday_to_hms"]}
{"id": "C19", "title": "cal_to_jde adds the time of day", "statement": "cal_to_jde(y,m,d,h,mi,s,g) = cal_to_jd(y,m,d,g) + h/24 + mi/1440 + s/86400 and raises exactly when cal_to_jd raises.", "quantifier": "all dates and times", "why_tests_cant": "all inputs", "anchors": ["src/astronomia/calendar.py:cal_to_jde"]}
{"id": "C20", "title": "lt_to_str shows the civil date and time", "statement": "lt_to_str prints the civil date of jd_to_cal and the time truncated to the requested level, 'day' omitting time and zone, and raises Error for any other level. (In the code the minutes field is formatted as a float, so it is always printed with a trailing '.0', contradicting the documented HH:MM:SS.)", "quantifier": "all Julian Days, levels and zones", "why_tests_cant": "all inputs; formatting of every value", "anchors": ["src/astronomia/calendar.py:lt_to_str"]}
{"id": "C21", "title": "ut_to_lt picks the zone by daylight saving", "statement": "ut_to_lt(jd) returns jd minus the offset of the zone selected by is_dst. (In the code is_dst never returns: it passes a float minute to datetime.datetime and raises TypeError for every input.)", "quantifier": "all Julian Days, all settings, all time zone databases", "why_tests_cant": "holds/fails for every input and every operating-system time zone database", "anchors": ["src/astronomia/calendar.py:ut_to_lt", "src/astronomia/calendar.py:is_dst"]}
{"id": "C22", "title": "sidereal time", "statement": "sidereal_time_greenwich(jd) is in [0, 2pi), equals the IAU 1982 cubic modulo one turn, and gains one turn plus 0.98564736629 degrees per day up to the tiny secular terms.", "quantifier": "all Julian Days", "why_tests_cant": "all reals", "anchors": ["src/astronomia/calendar.py:sidereal_time_greenwich"]}
{"id": "C23", "title": "angle reduction", "statement": "modpi2(x) and mod360(x) return a value congruent to x modulo one turn, between 0 and one turn; in exact arithmetic strictly below one turn, in binary64 the upper end itself is returned for tiny negative x.", "quantifier": "every real / every binary64 number and every rounding", "why_tests_cant": "float edge cases near multiples of a turn", "anchors": ["src/astronomia/util.py:modpi2", "src/astronomia/util.py:mod360"]}
{"id": "C24", "title": "diff_angle", "statement": "diff_angle(a,b) is congruent to b-a modulo a turn, lies in (-pi, pi] whenever a and b are in [0,2pi) (more generally whenever |b-a|<2pi), stays within [-pi, pi] exactly when |b-a| <= 3pi, and is antisymmetric except at opposite angles.", "quantifier": "all pairs of reals", "why_tests_cant": "all pairs", "anchors": ["src/astronomia/util.py:diff_angle"]}
{"id": "C25", "title": "sexagesimal round trip", "statement": "dms_to_d(*d_to_dms(x)) = x for every x, with |minutes| <= 59 and |seconds| < 60 and all components carrying the sign of x; dms_to_d negates the whole value if any component is negative; dms_to_d refuses arrays of more than one element.", "quantifier": "all reals", "why_tests_cant": "all reals, sign handling at zero degrees", "anchors": ["src/astronomia/util.py:d_to_dms", "src/astronomia/util.py:dms_to_d"]}
{"id": "C26", "title": "degree/radian conversions are inverse", "statement": "r_to_d(d_to_r(x)) = x and d_to_r(r_to_d(x)) = x; both are additive and monotone.", "quantifier": "all reals", "why_tests_cant": "all reals", "anchors": ["src/astronomia/util.py:d_to_r", "src/astronomia/util.py:r_to_d"]}
{"id": "C27", "title": "three-point interpolation", "statement": "interpolate3(n,y) raises Error unless -1<n<1; otherwise it returns the value at n of the unique quadratic through (-1,y0),(0,y1),(1,y2); it is therefore exact on quadratics, and y1 at n=0.", "quantifier": "all n and triples", "why_tests_cant": "all reals", "anchors": ["src/astronomia/util.py:interpolate3"]}
{"id": "C28", "title": "three-point angular interpolation", "statement": "If the three angles are reductions modulo a turn of an unwrapped sequence with steps less than half a turn and a second difference within (-pi, pi], interpolate_angle3 agrees modulo a turn with quadratic interpolation of the unwrapped sequence; same domain check as interpolate3.", "quantifier": "all n and triples, all unwrappings", "why_tests_cant": "wrap-around cases are infinitely many", "anchors": ["src/astronomia/util.py:interpolate_angle3"]}
{"id": "C29", "title": "polynomial", "statement": "polynomial(terms, x) is the sum of terms[i]*x^i; empty terms raise.", "quantifier": "all coefficient lists and x", "why_tests_cant": "unbounded length", "anchors": ["src/astronomia/util.py:polynomial"]}
{"id": "C30", "title": "load_params assigns settings", "statement": "Processing a parameter file assigns each named setting its converted value (offset units to days, degrees to radians, east and south negative); the last assignment wins; settings not mentioned keep their value; blocks for different settings commute; loading the same file twice equals loading it once.", "quantifier": "every token sequence and every prior setting state", "why_tests_cant": "histories of assignments of unbounded length", "anchors": ["src/astronomia/util.py:load_params", "src/astronomia/globals.py"]}
{"id": "C31", "title": "load_params errors", "statement": "An unknown keyword, a bad unit or a bad direction raises util.Error and a non-numeric value raises ValueError; settings assigned before the faulty entry stay assigned and the faulty and later entries have no effect.", "quantifier": "every token sequence", "why_tests_cant": "crash point anywhere in the file", "anchors": ["src/astronomia/util.py:load_params"]}
{"id": "C32", "title": "deltaT inside the table", "statement": "For dates from 1621 to the last table entry deltaT_seconds interpolates linearly: at a tabulated instant it returns the tabulated value, between two neighbours it lies between their values, it is continuous, and never divides by zero or reads outside the table.", "quantifier": "every Julian Day in the table range", "why_tests_cant": "a thousand segments and their end points", "anchors": ["src/astronomia/dynamical.py:deltaT_seconds", "src/astronomia/dynamical.py:_tbl"]}
{"id": "C33", "title": "deltaT outside the table", "statement": "Before 1621 and after the table deltaT_seconds depends only on the (year, month) of the Julian Day, by the piecewise polynomial of the year's interval plus the secular correction.", "quantifier": "every Julian Day outside the table", "why_tests_cant": "all years", "anchors": ["src/astronomia/dynamical.py:deltaT_seconds"]}
{"id": "C34", "title": "dt_to_ut preserves order", "statement": "dt_to_ut is strictly increasing over the table range; outside it is not (it jumps back at month boundaries).", "quantifier": "all pairs of Julian Days in the table range", "why_tests_cant": "pairs over a continuum", "anchors": ["src/astronomia/dynamical.py:dt_to_ut"]}
{"id": "C35", "title": "ecl_to_equ is the rotation by the obliquity", "statement": "The direction given by the returned right ascension and declination is the direction of the input rotated about the equinox axis by the obliquity; RA in [0,2pi), declination in [-pi/2,pi/2].", "quantifier": "all longitudes, latitudes strictly between the poles, all obliquities", "why_tests_cant": "all reals, quadrant selection", "anchors": ["src/astronomia/coordinates.py:ecl_to_equ"]}
{"id": "C36", "title": "ecliptic/equatorial round trip", "statement": "equ_to_ecl(ecl_to_equ(l,b,e),e) = (l mod 2pi, b mod 2pi) and ecl_to_equ(equ_to_ecl(a,d,e),e) = (a mod 2pi, d). equ_to_ecl returns negative latitudes as 2pi+b.", "quantifier": "all angles whose images are not poles", "why_tests_cant": "all reals", "anchors": ["src/astronomia/coordinates.py:ecl_to_equ", "src/astronomia/coordinates.py:equ_to_ecl"]}
{"id": "C37", "title": "equ_to_horiz is the rotation by the colatitude", "statement": "Azimuth (from south, westward) and altitude describe the direction of (H, decl) in the horizontal frame of the observer at the configured latitude.", "quantifier": "all hour angles, declinations, latitudes", "why_tests_cant": "all reals", "anchors": ["src/astronomia/coordinates.py:equ_to_horiz"]}
{"id": "C38", "title": "ell_to_geo", "statement": "The returned radius and angle are the polar coordinates of the meridian-plane point (N+h)cos, (N(1-e^2)+h)sin; for height 0 the radius lies between polar and equatorial radius; (the unit in the code is thousands of kilometres for the ellipsoid but kilometres for the height).", "quantifier": "all latitudes and heights", "why_tests_cant": "all reals", "anchors": ["src/astronomia/coordinates.py:ell_to_geo"]}
{"id": "C39", "title": "VSOP87d.dimension for one instant", "statement": "For a scalar time and a known planet and coordinate it returns the truncated Poisson series sum_k tau^k sum A cos(B+C tau), L reduced to [0,2pi); otherwise KeyError.", "quantifier": "all times, all series tables", "why_tests_cant": "all reals, all tables", "anchors": ["src/astronomia/planets.py:VSOP87d.dimension"]}
{"id": "C40", "title": "VSOP87d.dimension for arrays", "statement": "Users expect elementwise results. The code sums over the time axis: for n equal times it returns n times the scalar radius/latitude.", "quantifier": "all arrays of times", "why_tests_cant": "array lengths are unbounded; tests only use scalars", "anchors": ["src/astronomia/planets.py:VSOP87d.dimension"]}
{"id": "C41", "title": "heliocentric distances and latitudes are physical", "statement": "For every planet and every date within some millennia of J2000 the returned radius lies in the planet's known range (in particular positive and ordered Mercury<Venus<Earth<Mars<Jupiter<Saturn<Uranus<Neptune) and the latitude is bounded by the orbital inclination, far from +-pi/2.", "quantifier": "every real time in the range, every planet", "why_tests_cant": "continuum of times; sums of thousands of terms", "anchors": ["src/astronomia/planets.py:VSOP87d.dimension", "src/astronomia/vsop87d_dict.py"]}
{"id": "C42", "title": "the Sun is opposite the Earth", "statement": "Sun.dimension3 gives the direction exactly opposite to the Earth's heliocentric direction with the same radius; longitude in [0,2pi).", "quantifier": "every time", "why_tests_cant": "all reals", "anchors": ["src/astronomia/sun.py:Sun.dimension", "src/astronomia/sun.py:Sun.dimension3"]}
{"id": "C43", "title": "nutation is small", "statement": "|nutation_in_longitude| < 20 arcsec and |nutation_in_obliquity| < 11 arcsec for all dates within ten centuries of J2000 (linear growth bound beyond).", "quantifier": "every real time", "why_tests_cant": "continuum of times", "anchors": ["src/astronomia/nutation.py:nutation_in_longitude", "src/astronomia/nutation.py:nutation_in_obliquity"]}
{"id": "C44", "title": "the two obliquity formulas agree", "statement": "obliquity and obliquity_hi differ by less than 1 arcsec within 1000 years and 2 arcsec within 2000 years of J2000, and within their stated periods lie strictly between 22 and 25 degrees.", "quantifier": "every real time in range", "why_tests_cant": "continuum", "anchors": ["src/astronomia/nutation.py:obliquity", "src/astronomia/nutation.py:obliquity_hi"]}
{"id": "C45", "title": "lunar position", "statement": "Lunar.dimension3 returns exactly the three Lunar.dimension values; an unknown dimension raises Error; the distance stays within 350000..420000 km and the latitude within 6.1 degrees for dates within 20 centuries of J2000; the reduction of the arguments does not change the value of the series.", "quantifier": "every real time in range, every dimension name", "why_tests_cant": "continuum", "anchors": ["src/astronomia/lunar.py:Lunar"]}
{"id": "C46", "title": "low precision Sun", "statement": "longitude_radius_low returns a longitude in [0,2pi) and a radius within 0.98..1.02 au; apparent_longitude_low differs from its input by at most 0.011 degree modulo a turn.", "quantifier": "every real time in range", "why_tests_cant": "continuum", "anchors": ["src/astronomia/sun.py:longitude_radius_low", "src/astronomia/sun.py:apparent_longitude_low"]}
{"id": "C47", "title": "equinox_approx order and domain", "statement": "equinox_approx raises Error outside -1000..3000 or for an unknown season; otherwise spring < summer < autumn < winter < next year's spring, and the same season of consecutive years is 365.2..365.3 days apart.", "quantifier": "every year in the domain, every season", "why_tests_cant": "4001 years times continuum of corrections", "anchors": ["src/astronomia/equinox.py:equinox_approx"]}
{"id": "C48", "title": "equinox converges to the true event", "statement": "For every start within the supported era and every positive delta not astronomically small, equinox returns (never 'bailout') and the result is within delta of an instant at which the apparent solar longitude (as computed by the library) equals the season's angle; for an unknown season it raises KeyError.", "quantifier": "every real start time in the era, every season, every delta", "why_tests_cant": "convergence from a continuum of starts", "anchors": ["src/astronomia/equinox.py:equinox"]}
{"id": "C49", "title": "geocentric_planet", "statement": "For every planet but the Earth, every date within 5900 years of J2000 and every precision from 1e-50 to 14 days it returns (never 'bailout'; three passes suffice for one second), and the returned direction is within 0.33 arcsec of the direction at the unique time of emission, turned to the equator. Unknown planets raise KeyError; 'Earth' is accepted and yields a meaningless direction; a precision of 15.5 days or more disables the light-time correction; a non-positive one raises.", "quantifier": "every time in the era, planet, precision, nutation and obliquity", "why_tests_cant": "all executions of the loop over a continuum of times", "anchors": ["src/astronomia/planets.py:geocentric_planet"]}
{"id": "C50", "title": "vsop_to_fk5 is a small correction", "statement": "It changes the longitude by at most 0.09033 + 0.0554 |tan B| seconds of arc (0.103 for |B| <= 0.2) and the latitude by at most 0.0554 seconds of arc, and returns a longitude in [0,2pi).", "quantifier": "all times, longitudes and latitudes with |B|<=0.2 rad", "why_tests_cant": "continuum", "anchors": ["src/astronomia/planets.py:vsop_to_fk5"]}
{"id": "C51", "title": "rise and settime", "statement": "Users expect the Julian Day of the event. In the code riseset.rise and riseset.settime never return a value other than None.", "quantifier": "all inputs", "why_tests_cant": "all inputs", "anchors": ["src/astronomia/riseset.py:rise", "src/astronomia/riseset.py:settime", "src/astronomia/riseset.py:_riseset"]}
{"id": "C52", "title": "transit", "statement": "A time returned by transit is that of a passage through the meridian, within a tenth of delta and a millisecond; a transit in the middle of the day is found; the iteration never bails out. None can be returned only if a transit is in the last quarter of the day or shortly after it. The arguments are refused exactly when right ascension plus longitude is more than a turn below the sidereal time.", "quantifier": "all inputs, all iteration histories", "why_tests_cant": "all executions of the loop", "anchors": ["src/astronomia/riseset.py:transit"]}
{"id": "C53", "title": "_riseset", "statement": "None is returned exactly for bodies which stay above or below the altitude; at a returned time the body has the altitude asked for, up to 18 delta; sufficiently steep risings and settings are found, unless the first estimate is refused.", "quantifier": "all inputs", "why_tests_cant": "all executions of the loop", "anchors": ["src/astronomia/riseset.py:_riseset"]}
{"id": "C54", "title": "cronus displays events in order", "statement": "If every task only schedules tasks at or after its own time, then events are delivered in nondecreasing time order, for any tie-breaking of the heap; Easter and equinox tasks satisfy this; the rise/set/transit task does not (it schedules events of the previous day).", "quantifier": "all histories of the task queue, all tie-breakings", "why_tests_cant": "schedules of unbounded length", "anchors": ["src/astronomia/apps/cronus.py:cronus", "src/astronomia/apps/cronus.py:doEaster", "src/astronomia/apps/cronus.py:doEquinox", "src/astronomia/apps/cronus.py:doRiseSetTransit"]}
{"id": "C55", "title": "cronus stop year", "statement": "Users expect events until the stop year. In the code the stop year is compared with Julian Days, so with a stop argument below one million no dated event is displayed, and without one the program raises.", "quantifier": "all start and stop years", "why_tests_cant": "all runs", "anchors": ["src/astronomia/apps/cronus.py:cronus"]}
{"id": "C56", "title": "planetary terms are loaded once and shared", "statement": "All VSOP87d instances see the same table; constructing more instances never changes it.", "quantifier": "all construction histories", "why_tests_cant": "histories", "anchors": ["src/astronomia/planets.py:VSOP87d.__init__"]}
{"id": "C57", "title": "easter_cgi reports Easter dates", "statement": "Users expect the dates. In the code the result rows are a constant template independent of the year; range and calendar validation behave as documented. Submitted as displayed, the form asks for the years from five years ago to five years ahead in both calendars.", "quantifier": "all form inputs", "why_tests_cant": "all inputs", "anchors": ["src/astronomia/cgi/easter_cgi.py:display_results"]}
{"id": "C58", "title": "solstice_cgi zones", "statement": "Every zone offered by the form has an hour offset, the zones are offered in the order of the offsets, CST and CDT are selected, the offset applied is minus hours/24, and every submission that passes the year validation with a non-empty range still fails to produce a table row.", "quantifier": "all submissions", "why_tests_cant": "all inputs", "anchors": ["src/astronomia/cgi/solstice_cgi.py"]}
{"id": "C59", "title": "which parameter file load_params reads", "statement": "load_params reads exactly one file: the one named by the environment variable if it exists, otherwise the first existing candidate of the fixed search list; an environment variable naming a missing file is silently passed over; with no file it raises.", "quantifier": "all environments and file systems", "why_tests_cant": "all combinations of existing files", "anchors": ["src/astronomia/util.py:load_params"]}
{"id": "C60", "title": "the parameter file lexer", "statement": "Words separated by blanks or newlines and '#' comments are returned in order; text after '#' up to the end of line never contributes a word. A comment glued to a word joins it with the next line's first word, and '+' is not a word character. The word characters are the letters, digits and _ . - / \\ : (so a path with a drive letter is one word); a quoted text is one token with its quotation marks; a quotation that is not closed raises ValueError after the entries before it have been assigned.", "quantifier": "every text", "why_tests_cant": "texts of unbounded length", "anchors": ["src/astronomia/util.py:load_params"]}
{"id": "C61", "title": "planets always advance", "statement": "The heliocentric longitude of every planet (unreduced Poisson series) increases strictly with time at a rate between explicit bounds per planet.", "quantifier": "every pair of times within the supported era, every planet", "why_tests_cant": "continuum of pairs of times", "anchors": ["src/astronomia/planets.py:VSOP87d.dimension"]}
{"id": "C62", "title": "mean arguments of Sun and Moon are consistent", "statement": "Moon mean longitude minus mean anomaly is the perigee, minus elongation the Sun's mean longitude, minus argument of latitude the node; Sun's mean longitude minus anomaly its perigee, up to small tolerances within 2000 years of J2000. For the node the tolerance of the others is exceeded: the last coefficient has the wrong sign.", "quantifier": "every real time within 20 centuries of J2000", "why_tests_cant": "continuum of times", "anchors": ["src/astronomia/lunar.py:Lunar.mean_longitude_perigee", "src/astronomia/lunar.py:Lunar.mean_longitude_ascending_node", "src/astronomia/sun.py:Sun.mean_longitude", "src/astronomia/commonterms.py:ko"]}
{"id": "C63", "title": "equinox_approx dates", "statement": "For every year 1583..3000 the approximate spring, summer, autumn and winter instants fall on the traditional Gregorian dates (March, June, September, December, in fixed windows of days).", "quantifier": "every Gregorian year up to 3000, every season", "why_tests_cant": "whole range of years times the season tables", "anchors": ["src/astronomia/equinox.py:equinox_approx"]}
{"id": "C64", "title": "equinox from the approximation", "statement": "For every year -1000..3000 and season, equinox started from equinox_approx returns for every precision down to 1e-20 day a time within 0.056 of the precision of an event; the event is within 5.1 days of the approximation and is the only one within 340 days; the four results of a year are in seasonal order.", "quantifier": "every year in the domain, every season, every precision", "why_tests_cant": "4001 years, four seasons, a continuum of precisions", "anchors": ["src/astronomia/equinox.py:equinox_approx", "src/astronomia/equinox.py:equinox"]}
{"id": "C65", "title": "Standard altitude of the Moon", "statement": "moon_rst_altitude strictly decreases with the distance (outside the Earth) and lies between 0.06 and 0.21 degree for every distance between 356000 and 407000 km, so the Moon's centre is geometrically above the horizon at moonrise.", "quantifier": "all distances", "why_tests_cant": "a continuum of distances", "anchors": ["src/astronomia/riseset.py:moon_rst_altitude"]}
{"id": "C66", "title": "the task queue is a priority queue", "statement": "heapq.heappush and heappop as used by cronus: after any sequence of pushes, popping returns every task pushed exactly once, in nondecreasing order of time, and an empty queue is refused; tasks with equal times need not come out in the order they were pushed.", "quantifier": "all lists of tasks, all heaps", "why_tests_cant": "queues of unbounded length", "anchors": ["src/astronomia/apps/cronus.py:Task", "src/astronomia/apps/cronus.py:cronus"]}
{"id": "C67", "title": "Easter lines of cronus", "statement": "The Easter lines displayed in a run are those of consecutive years from the start year on, each exactly once; when the loop ends normally they are exactly those of the Easters before the stop time; each line shows the date of Easter Sunday.", "quantifier": "all runs, all start and stop values", "why_tests_cant": "runs of unbounded length", "anchors": ["src/astronomia/apps/cronus.py:doEaster", "src/astronomia/apps/cronus.py:cronus"]}
{"id": "C68", "title": "coordinates used by cronus", "statement": "The days are treated one by one from 1 January of the start year, no day twice, and when a day is treated the table holds the apparent places of all nine bodies for the day before, that day and the day after. Each day every body's rising and setting is reported as a failure.", "quantifier": "all runs", "why_tests_cant": "runs of unbounded length", "anchors": ["src/astronomia/apps/cronus.py:initRST", "src/astronomia/apps/cronus.py:doRiseSetTransit"]}
{"id": "C69", "title": "the solstice program", "statement": "For every range of years between -1000 and 3000 the program shows each year in order and below it the local times, to the second, of its four equinoxes and solstices in seasonal order. In the code the conversion to local time always raises: only the first year is shown and no time; with a working conversion the claim holds.", "quantifier": "all ranges of years, all zones, all conversions to local time", "why_tests_cant": "ranges of unbounded length, a continuum of instants", "anchors": ["src/astronomia/apps/solstice.py:solstice"]}
{"id": "C70", "title": "sun.rise", "statement": "sun.rise is documented to give the Sun's coordinates for a date and place. In the code it never returns: for every valid date and every place it raises AttributeError, because the Sun object has no lists to update.", "quantifier": "all dates, all places", "why_tests_cant": "all dates", "anchors": ["src/astronomia/sun.py:rise"]}
{"id": "C71", "title": "apparent places in cronus", "statement": "The right ascensions and declinations in the table of cronus are apparent places of date: Sun and planets with the nutation in longitude counted once, the Sun with the aberration 20.4898 seconds of arc over its distance. For the Moon this is false: Lunar.dimension3 contains the nutation already and cronus adds it a second time.", "quantifier": "all times within 6000 years (Moon 2000 years) of J2000", "why_tests_cant": "all times", "anchors": ["src/astronomia/apps/cronus.py:initRST", "src/astronomia/apps/cronus.py:doRiseSetTransit", "src/astronomia/lunar.py:_longitude"]}
{"id": "C72", "title": "motion of the Moon", "statement": "The Moon's longitude always grows, by 10.9 to 15.45 degrees a day; it reaches every longitude within 28.8 days and not again before 25.9 days; every phase (difference to the Sun's apparent longitude) occurs in any 31.6 days, the same phase not within 27.5 days, and between two new Moons every other phase occurs exactly once and in order; the latitude changes by less than 1.44 degrees and the distance by less than 7500 km a day; in every 27.3 days the Moon crosses the ecliptic and in every 27.6 days it is near and far.", "quantifier": "all times within 2000 years of J2000 and all angles", "why_tests_cant": "all real times and angles, existence and uniqueness", "anchors": ["src/astronomia/lunar.py:Lunar", "src/astronomia/equinox.py:equinox"]}
{"id": "C73", "title": "inner planets stay near the Sun", "statement": "The apparent place of Mercury is never more than 31.1 degrees and that of Venus never more than 48.8 degrees from the apparent place of the Sun, in geocentric_planet and in the table of cronus.", "quantifier": "all times within 5900 years of J2000, all nutations and obliquities, all tolerances up to 14 days", "why_tests_cant": "a bound over all real times of a composition of series and iteration", "anchors": ["src/astronomia/planets.py:geocentric_planet", "src/astronomia/apps/cronus.py:initRST"]}
{"id": "C74", "title": "periods of revolution and synodic periods", "statement": "The heliocentric longitude of each planet takes every angle in its tropical period and the difference of the longitudes of any two planets takes every angle in their synodic period, up to a stated deviation, and not sooner; a planet nearer the Sun gains on every one farther out over any stretch of time.", "quantifier": "all planets, pairs, angles and times within 2000 years of J2000", "why_tests_cant": "existence and spacing of events over all real times", "anchors": ["src/astronomia/planets.py:VSOP87d"]}
{"id": "C75", "title": "rounding errors of VSOP87d.dimension", "statement": "In binary64 arithmetic VSOP87d.dimension returns the value of the series up to an explicit error per planet and coordinate: for the Earth less than 2.6e-10 radian within 2000 years and 7.3e-10 radian within 6000 years of J2000, for any rounding to nearest, any cosine within 2^-50 and any order of summation at most 64 deep (1400 deep with larger errors). The longitude stays between 0 and the float 2 pi. Unknown planets and coordinates raise KeyError.", "quantifier": "all binary64 times within 6000 years, all planets and coordinates, all orders of summation", "why_tests_cant": "a continuum of times and every rounding, cosine and order of summation", "anchors": ["src/astronomia/planets.py:VSOP87d.dimension"]}
{"id": "C76", "title": "equinox in binary64", "statement": "In binary64 arithmetic the apparent longitude of the Sun (series, FK5 correction, nutation, aberration) is the real one up to the error of the series of the Earth plus 1e-12 radian; the nutation has a rounding error of at most 7e-13 radian. The loop of equinox therefore still ends: for every start within 5900 years of J2000, every season and every precision of at least 1e-7 day it returns a time within 0.056 delta + 4.6e-8 day (4 ms) of an exact event, 1.5 ms within 1900 years. Within 150 days of an event it finds that event. Unknown seasons raise KeyError; a precision that is not positive bails out.", "quantifier": "all binary64 start times within 5900 years, all seasons, all precisions >= 1e-7 day, every rounding to nearest, library within 2^-50", "why_tests_cant": "a continuum of starts, and the chain of several hundred thousand rounded operations", "anchors": ["src/astronomia/equinox.py:equinox", "src/astronomia/nutation.py:nutation_in_longitude", "src/astronomia/sun.py:aberration_low", "src/astronomia/util.py:diff_angle"]}
{"id": "C77", "title": "equinox_approx and the year's events in binary64", "statement": "In binary64 arithmetic equinox_approx is the real one up to 2e-9 day for every year -1000..3000 and season, refuses the same arguments, and takes the integer part of a fractional year. equinox started from it returns for every precision of at least 1e-7 day a time within 0.056 delta + 4 ms of an event, the only one within 339 days; the four events of a year come out in order, 77 to 105 days apart.", "quantifier": "all years of the domain, all seasons, all precisions >= 1e-7 day, every rounding to nearest, every summation within the stated bound", "why_tests_cant": "4001 years times every rounding and library", "anchors": ["src/astronomia/equinox.py:equinox_approx", "src/astronomia/equinox.py:equinox"]}
{"id": "C78", "title": "the Moon in binary64", "statement": "In binary64 arithmetic, within 2000 years of J2000, Lunar.dimension3 is the real one up to 2.7e-10 radian in longitude (whole turns aside), 6e-11 radian in latitude and 1.4 cm in distance; the six mean angles up to 1.9e-10 radian; the computed longitude still always advances between instants at least a quarter of a millisecond apart; unknown dimension names are refused.", "quantifier": "all binary64 times within 2000 years of J2000, every rounding to nearest, library within 2^-50", "why_tests_cant": "a continuum of times and every rounding and library", "anchors": ["src/astronomia/lunar.py:Lunar", "src/astronomia/lunar.py:_constants"]}
{"id": "C79", "title": "coordinate transformations in binary64", "statement": "In binary64 arithmetic ecl_to_equ, equ_to_ecl and equ_to_horiz return the angles of the real transformations with an error of at most 2.3e-14 divided by the cosine of the resulting latitude, for the declination, latitude and altitude a number whenever the result is more than 1e-7 radian from the poles; for points of the zodiac both results are numbers within 3e-14 radian. Nearer to the poles the result can be nan: with correctly rounded cosines the altitude of a star in the zenith at latitude 1039/2^21 radian is nan instead of a right angle.", "quantifier": "all binary64 angles with a positive cosine of the latitude, every rounding to nearest, library within 2^-50", "why_tests_cant": "a continuum of angles and every rounding and library", "anchors": ["src/astronomia/coordinates.py:ecl_to_equ", "src/astronomia/coordinates.py:equ_to_ecl", "src/astronomia/coordinates.py:equ_to_horiz"]}
{"id": "C80", "title": "geocentric_planet in binary64", "statement": "In binary64 arithmetic geocentric_planet returns, for every planet but the Earth, every time within 5900 years of J2000 and every precision from 5.3e-9 to 14 days, two numbers, no nan, and the direction is within 1.6e-6 radian (mostly the FK5 correction) of the direction from the Earth to the planet at the unique time of emission, shifted by the nutation and turned to the equator. Three passes of the loop suffice for the precision of one second the library uses, four for 1.2e-8 days, as far as rounding is concerned too. An unknown planet raises KeyError; a precision that is not positive bails out.", "quantifier": "all binary64 times within 5900 years, all planets, all precisions in the range, all obliquities up to 0.437, every rounding to nearest, library within 2^-50", "why_tests_cant": "a continuum of times and precisions, every rounding and library, and an iteration", "anchors": ["src/astronomia/planets.py:geocentric_planet", "src/astronomia/planets.py:vsop_to_fk5"]}
{"id": "C81", "title": "jd_to_jcent", "statement": "jd_to_jcent is the number of centuries of 36525 days since JD 2451545: exact for whole centuries, monotone, with a relative error of at most 2.3e-16, and for every float between JD 1048576 and 4548697 the nearest float (the subtraction is exact).", "quantifier": "all Julian Days, every rounding to nearest", "why_tests_cant": "a continuum of days and every rounding", "anchors": ["src/astronomia/calendar.py:jd_to_jcent"]}
{"id": "C82", "title": "easter for years given as floats", "statement": "A whole year given as a float gives the same month and day as the integer, so Easter Sunday. A fraction of a year is not dropped and gives wrong dates, even days which are not whole.", "quantifier": "every whole year up to 2^45 in size, both calendars, every rounding to nearest", "why_tests_cant": "all years, all roundings", "anchors": ["src/astronomia/calendar.py:easter"]}
{"id": "C83", "title": "sidereal time in binary64", "statement": "sidereal_time_greenwich as computed with floats is an angle from 0 to 2 pi, and agrees with the formula up to 7.5e-9 radians (a tenth of a millisecond of time) and whole turns.", "quantifier": "every Julian Day within 3000 years of J2000, every rounding with IEEE error bounds", "why_tests_cant": "all days, all roundings", "anchors": ["src/astronomia/calendar.py:sidereal_time_greenwich"]}
{"id": "C84", "title": "transit in binary64", "statement": "A time returned by transit as computed with floats is that of a passage through the meridian, within a tenth of the requested precision and a millisecond; a transit in the middle of the day is found; the iteration never bails out. Transits at the end of the day may be dropped and eastern longitudes may be refused.", "quantifier": "every day within 3000 years of J2000, every longitude, every body moving less than 23 degrees a day, every precision of 1e-13 day or more, every rounding with IEEE error bounds", "why_tests_cant": "all inputs, all roundings, convergence of an iteration with rounding noise", "anchors": ["src/astronomia/riseset.py:transit"]}
{"id": "C85", "title": "Rising and setting in binary64", "statement": "If a body moving not faster than the Sun passes the altitude h0 at a time of the day with a vertical speed of at least 0.45 of the equatorial one, _riseset as computed with floats either refuses the first estimate, which happens only for certain sums of right ascension and longitude, or returns this time within 0.52 of the precision and two milliseconds. At every time returned the body has the altitude asked for, up to 18 times the precision. For a body that stays below or above the altitude the result is None.", "quantifier": "every day within 3000 years of J2000, every observer, every altitude of the quantifier, every precision of 1e-7 day or more, every rounding with IEEE error bounds and every library with an error of at most 2^-50", "why_tests_cant": "all inputs, all roundings, convergence of an iteration with rounding noise", "anchors": ["src/astronomia/riseset.py:_riseset"]}
{"id": "C86", "title": "array arguments of the astronomical functions", "statement": "The coordinate transformations, the low precision functions of the Sun and vsop_to_fk5, called with arrays, return for every position what the call with the numbers of that position returns, with NumPy's broadcasting of scalars and one-element arrays. geocentric_planet, whose time is documented as float or ndarray, does so too. (False for geocentric_planet: every array of two or more times raises ValueError.)", "quantifier": "every array of times, every combination of shapes that broadcasts, every planet, every accuracy", "why_tests_cant": "all lengths and shapes of the arguments", "anchors": ["src/astronomia/coordinates.py:ecl_to_equ", "src/astronomia/coordinates.py:equ_to_ecl", "src/astronomia/coordinates.py:equ_to_horiz", "src/astronomia/coordinates.py:ell_to_geo", "src/astronomia/sun.py:longitude_radius_low", "src/astronomia/sun.py:apparent_longitude_low", "src/astronomia/planets.py:vsop_to_fk5", "src/astronomia/planets.py:geocentric_planet"]}
{"id": "C87", "title": "obliquity, mean and low precision Sun, ell_to_geo and moon_rst_altitude in binary64", "statement": "Computed with floats, both obliquities are within 1e-15 radian of their formulas, the mean longitudes of the Sun and of its perigee within 6e-11 and 1e-14 radian, the low precision longitude and distance of the Sun within 5e-11 radian and 1e-12 au, the apparent longitude within 7e-15 radian, ell_to_geo within 6e-13 of its length units and 1e-13 radian, and the standard altitude of the Moon within 1.5e-15 radian; inside the Earth the latter is nan.", "quantifier": "every time within 6000 years of J2000 (10000 for obliquity_hi), every latitude and longitude, heights from -1 to 100 units, distances from 10000 km (nan up to 6378 km), every rounding that IEEE 754 allows", "why_tests_cant": "all binary64 times and places", "anchors": ["src/astronomia/nutation.py:obliquity", "src/astronomia/nutation.py:obliquity_hi", "src/astronomia/sun.py:Sun.mean_longitude", "src/astronomia/sun.py:Sun.mean_longitude_perigee", "src/astronomia/sun.py:longitude_radius_low", "src/astronomia/sun.py:apparent_longitude_low", "src/astronomia/coordinates.py:ell_to_geo", "src/astronomia/riseset.py:moon_rst_altitude"]}
{"id": "C88", "title": "planets where the authors of the theory put them", "statement": "VSOP87d.dimension3 returns the longitude, latitude and distance of every entry of the file of check values distributed with the theory (vsop87.chk, 80 entries, eight planets over nine centuries) to 1e-10 radian or astronomical unit; in binary64 the rounding errors of C75 are added. The test suite compares to six digits only.", "quantifier": "all entries of the file, and for binary64 every rounding, cosine and summation", "why_tests_cant": "every rounding and library; and all other theorems about the planets hold for whatever numbers the tables contain", "anchors": ["src/astronomia/planets.py:VSOP87d.dimension3", "src/astronomia/vsop87d_dict.py", "tests/vsop87.chk"]}
{"id": "C89", "title": "accuracy of equinox_approx", "statement": "The docstring: for the years -1000 to 3000 the error of equinox_approx from the precise instant is at most 2.16 minutes. For the years after 1000 it is at most 1.8 minutes. The same holds with binary64 arithmetic. The precise instant is where the apparent longitude of the Sun (VSOP87 series, nutation, aberration, FK5 correction of the package) has the value of the season; equinox started at the result returns a time within 2.16 minutes and 0.056 of its precision.", "quantifier": "every year from -1000 to 3000, also fractional years, every season, every precision down to 1e-20 day, every rounding, cosine and summation of C77", "why_tests_cant": "16004 instants, each the root of a function with 1400 terms which is known only through its error bounds", "anchors": ["src/astronomia/equinox.py:equinox_approx", "src/astronomia/equinox.py:_approx_1000", "src/astronomia/equinox.py:_approx_3000", "src/astronomia/equinox.py:_terms", "src/astronomia/equinox.py:equinox"]}
{"id": "C90", "title": "published times of equinoxes and solstices", "statement": "The times which Meeus publishes to the second (summer 1962 and the forty events of 1996-2005, tests/test_equinox.py) are met: the event is within 0.87 seconds; equinox started at any time within 149 days returns the published time up to 0.87 seconds and 5.6 percent of the precision; in binary64, equinox from equinox_approx with a precision of one second is less than one second from the published time.", "quantifier": "every published event, every start within 149 days, every precision down to 1e-20 day (1e-7 in binary64), every rounding, cosine and summation of C76", "why_tests_cant": "the test tries one start and one precision and allows thirteen seconds", "anchors": ["src/astronomia/equinox.py:equinox", "src/astronomia/equinox.py:equinox_approx", "tests/test_equinox.py:tbl"]}
{"id": "C91", "title": "published positions of Sun and Moon", "statement": "The worked examples of Meeus quoted in the tests are met to the printed digits: the Moon of 1992 April 12 and 2013 June 23 (longitude and latitude to 1e-6 and 1e-7 degree, distance to the kilometre), nutation and obliquity of 1987 April 10 and 2013 July 6 (0.0005 arc second), the Sun of 1992 October 13 from the low precision formulas (5e-6 degree, 5e-6 au) and from the complete theory reduced to the FK5 (0.005 arc second, 2e-8 au), its aberration; the mean elements differ by at most 0.022 degree from the thirteen rows of Schureman.", "quantifier": "the published times and rows; the binary64 versions: every rounding, cosine and summation satisfying the stated error bounds", "why_tests_cant": "the tests run one platform's floating point; whether an agreement to the last printed digit is a property of the formula or of the rounding cannot be seen from a run", "anchors": ["src/astronomia/lunar.py:ELP2000.dimension3", "src/astronomia/nutation.py:nutation_in_longitude", "src/astronomia/sun.py:Sun.dimension3", "src/astronomia/sun.py:longitude_radius_low", "tests/test_elp2000.py:test_compare_to_schureman", "tests/test_sun.py:test_dimension3"]}
{"id": "C92", "title": "array arguments of Moon, nutation, sidereal time, Delta T and equinox", "statement": "For an array of times of any length the Moon (all three dimensions and the mean elements), the nutation and both obliquities return an array whose entries are the values of the single calls (a scalar for one element); sidereal_time_greenwich does so and always returns an array; deltaT_seconds, dt_to_ut, diff_angle and equinox raise ValueError for every array of two or more elements. equinox of an array of one element returns the result of a single pass for every precision, because the array is changed in place and the convergence test compares it with itself; the time can be wrong by more than 1.4 days.", "quantifier": "all arrays of any length, all seasons, all precisions", "why_tests_cant": "the tests pass no arrays to these functions; the aliasing of jd and jd0 is invisible with floats", "anchors": ["src/astronomia/lunar.py:Lunar.dimension3", "src/astronomia/nutation.py:nutation_in_longitude", "src/astronomia/nutation.py:obliquity_hi", "src/astronomia/calendar.py:sidereal_time_greenwich", "src/astronomia/dynamical.py:deltaT_seconds", "src/astronomia/equinox.py:equinox"]}
{"id": "C93", "title": "util in binary64 for all arguments", "statement": "polynomial in binary64 differs from the exact value by at most ((1+2^-53)^(2(n-1)) - 1) times the sum of the absolute values of its terms, for every non-empty list of coefficients and every argument; d_to_r and r_to_d have a relative error of at most 2.5*2^-53 against pi/180, and their composition one of 5.1*2^-53; diff_angle of two angles between 0 and pi2 lies between -pi and pi, both ends the float pi, and equals their difference up to a turn and 6e-15; interpolate3 has an error of at most 24*2^-53 times a bound of the three values; interpolate_angle3 of angles whose steps and second difference are less than half a turn (by 1e-13) is the quadratic interpolation of the unreduced angles up to whole turns and 2e-14, and refuses exactly the factors outside (-1, 1).", "quantifier": "all lists of coefficients of any length, all floats, all rounding functions with the properties of binary64", "why_tests_cant": "a test compares a few values with a tolerance; the bounds hold for every argument", "anchors": ["src/astronomia/util.py:polynomial", "src/astronomia/util.py:d_to_r", "src/astronomia/util.py:r_to_d", "src/astronomia/util.py:diff_angle", "src/astronomia/util.py:interpolate3", "src/astronomia/util.py:interpolate_angle3"]}
{"id": "C94", "title": "check_perihelion shows the aphelion", "statement": "When load_params returns, check_perihelion prints one line for each of the hours -24 to 23, in this order; the line of hour 0 shows exactly 0 and the line of every other hour i a decrease of the distance of the Earth of at least 0.64 i^2 km and at most 0.73 i^2 km. An exception of load_params ends the program.", "quantifier": "all binary64 roundings, all cosines accurate to 2^-50, all summation orders up to depth 64, all outcomes of load_params", "why_tests_cant": "the script has no test; one run shows one cosine and one summation order", "anchors": ["src/astronomia/apps/check_perihelion.py:main", "src/astronomia/planets.py:VSOP87d.dimension", "src/astronomia/calendar.py:cal_to_jd"]}
{"id": "C95", "title": "the seasons of cronus", "statement": "Every line of an equinox or solstice which cronus displays is that of a season of a year from the start year on: its time is that of the event to a twentieth of a second, the text is the local time to the second and the name of this event (spring: Vernal Equinox, summer: Summer Solstice, autumn: Autumnal Equinox, winter: Winter Solstice). No event is displayed twice, the lines are in order of time, and when the loop ends exactly the events before the stop have been displayed.", "quantifier": "all start years from -1000 on, all stops, runs of any length, all conversions to local time", "why_tests_cant": "runs of unbounded length, in which the task for the next year may be done before or after the line of this year is displayed", "anchors": ["src/astronomia/apps/cronus.py:doEquinox", "src/astronomia/apps/cronus.py:cronus"]}
{"id": "C96", "title": "Delta T in binary64 at all times", "statement": "deltaT_seconds in binary64 is within a nanosecond of the value of the formula or table in exact arithmetic at every time from 4712 BC to AD 9999, and takes the same branch; dt_to_ut is within 60 microseconds. The values at the 41 dates in tests/test_dynamical.py are met within a tenth of a second by every correctly rounding arithmetic.", "quantifier": "all floats between the Julian Days 32 and 5373484.5, all arithmetics which round to nearest", "why_tests_cant": "polynomials up to degree 6 over fourteen thousand years, with the branch chosen by a rounded date; tests try 41 dates on one machine", "anchors": ["src/astronomia/dynamical.py:deltaT_seconds", "src/astronomia/dynamical.py:dt_to_ut"]}
{"id": "C97", "title": "published places of Venus and Pollux and published sidereal times", "statement": "The worked examples of Meeus quoted in the tests: geocentric_planet meets the apparent place of Venus of 1992 December 20 (21h 4m 41.454s, -18d 53' 16.84\") to 0.005 seconds of arc; the heliocentric place is within 0.58 seconds of arc of the abridged one in the book; equ_to_ecl and ecl_to_equ meet the places of Pollux to 0.0025 seconds of arc; sidereal_time_greenwich meets the examples of 1987 April 10 to the last printed digit (0.00005 s), while the values in test_sidereal are 1.06 seconds less than the result.", "quantifier": "the published instants, in exact arithmetic over the full tables; the number of passes of the light time loop is proved, not observed", "why_tests_cant": "the test allows 1.5e-5 degree and one platform's rounding; that the agreement is one of the formulas is not visible in a run, and the tolerance of the test of the sidereal time hides a difference of a second", "anchors": ["src/astronomia/planets.py:geocentric_planet", "src/astronomia/planets.py:VSOP87d.dimension3", "src/astronomia/coordinates.py:ecl_to_equ", "src/astronomia/coordinates.py:equ_to_ecl", "src/astronomia/calendar.py:sidereal_time_greenwich", "tests/test_vsop.py", "tests/test_coordinates.py", "tests/test_calendar.py:test_sidereal"]}
{"id": "C98", "title": "vsop_to_fk5 is a rotation of the frame", "statement": "vsop_to_fk5 is the published formula (Meeus 32.3) at all times, longitudes and latitudes. The formula is, up to terms of second order (8e-13 for the latitudes of the planets), the rotation by a vector of constant length 0.10596 seconds of arc whose longitude grows by the general precession, so that its axis is fixed among the stars; the angles between two corrected directions are the given ones up to 2.2e-12.", "quantifier": "all times, all longitudes, all latitudes other than the poles (isometry: latitudes up to 0.2)", "why_tests_cant": "a wrong sign or a swapped sine in a correction of a tenth of a second of arc is invisible in tests with tolerances of a second of arc; the geometric meaning is a statement about all directions", "anchors": ["src/astronomia/planets.py:vsop_to_fk5"]}
{"id": "C99", "title": "light-time and aberration of the planets", "statement": "There is exactly one time at which the light seen at jd left the planet. Taking planet and Earth both at that time is exactly the same as displacing the true direction (planet then, Earth now) by the aberration of the mean velocity of the Earth while the light was under way. geocentric_planet returns the direction so displaced, turned to the FK5 frame, by the nutation and to the equator, up to 7.6e-7 radian (0.16 seconds of arc).", "quantifier": "seven planets, all times within 5900 years of J2000, all nutations, obliquities, and precisions from 1e-50 to 14 days", "why_tests_cant": "the code never mentions the velocity of the Earth; that its iteration accounts for aberration is an identity about positions at three different times, not a value", "anchors": ["src/astronomia/planets.py:geocentric_planet", "src/astronomia/planets.py:vsop_to_fk5"]}
{"id": "C100", "title": "aberration of the Sun", "statement": "While the light of the Sun is under way the longitude of the Earth in the series grows by 20.4898 seconds of arc over the distance, up to 0.035. The light appears to come exactly from the place opposite to that of the Earth at the time of emission, when the direction of the Sun is displaced by the velocity of the Earth. So the displacement of aberration_low, and the place of the Sun in cronus, are those of physics up to 0.0367 seconds of arc.", "quantifier": "all times within 1900 years of J2000, all nutations and obliquities", "why_tests_cant": "the constant of aberration_low and the VSOP series are independent pieces of the code; that they agree for all times needs the rate of a series of 190 terms and the cancellation of its annual terms against the distance", "anchors": ["src/astronomia/sun.py:aberration_low", "src/astronomia/planets.py:vsop_to_fk5"]}
{"id": "C101", "title": "accuracy of the low precision Sun", "statement": "The longitude of longitude_radius_low differs from that of the complete theory by at most 0.0208 degree within 1000 years of J2000 and 0.0259 degree within 2000 years; the apparent longitude of apparent_longitude_low by at most 0.0217 degree within 1000 years. The documented accuracy of 0.01 degree does not hold: on 2061 May 13 the error is more than 0.01025 degree, and with the published sign of the equation of the centre more than 0.01037 degree. The distance differs from that of the complete theory by at most 0.000164 astronomical units within 1000 years and 0.000172 within 2000 years. In binary64 the bounds grow by 0.00001 degree and 0.000001 astronomical units.", "quantifier": "all times within 1000 or 2000 years of J2000, every rounding and library of C87; one time for the counterexample", "why_tests_cant": "a test compares the two theories at a few dates; the bound holds at every instant, and dates with more than 0.01 degree are rare", "anchors": ["src/astronomia/sun.py:longitude_radius_low", "src/astronomia/sun.py:apparent_longitude_low", "src/astronomia/planets.py:VSOP87d.dimension"]}
{"id": "C102", "title": "the Sun interpolated from three daily places", "statement": "Right ascension and declination of the Sun interpolated by interpolate_angle3 and interpolate3 from its places at 0h of three days are those the code finds for the time itself, to 2.1 seconds of arc. So the transits, risings and settings computed by riseset.py are those of the Sun: at a tenth of the precision from a time returned by transit the Sun is in the meridian to 2.1 seconds of arc, at a time returned by _riseset it has the altitude asked for to 18 times the precision and 7 seconds of arc; and a transit (a rising or setting with a vertical speed of 0.4502) of the Sun itself is returned to 0.17 (0.7) second and a tenth (half) of the precision.", "quantifier": "all days within 5900 years (events: 3000 years) of J2000, all times between the first and the last day, all longitudes and latitudes", "why_tests_cant": "the third differences of a series of 190 terms, the nutation of 63 terms and a rotation, for all real times", "anchors": ["src/astronomia/riseset.py:transit", "src/astronomia/riseset.py:_riseset", "src/astronomia/util.py:interpolate_angle3", "src/astronomia/apps/cronus.py:initRST"]}
{"id": "C103", "title": "the Moon interpolated from three daily places", "statement": "As riseset.py says, the Moon moves too fast to be interpolated accurately from three daily positions: on 2005 January 12 the declination that interpolate3 finds halfway between two daily places of the table of cronus is 124 seconds of arc off that of the table for the same time.", "quantifier": "a day for which it fails (existence)", "why_tests_cant": "two hundred terms and a rotation with an error bound far below the effect, and comparison with the bound of 2.1 seconds that holds for the Sun on all days", "anchors": ["src/astronomia/riseset.py:28", "src/astronomia/util.py:interpolate3", "src/astronomia/apps/cronus.py:initRST"]}
{"id": "C104", "title": "how inaccurate the interpolation of the Moon is", "statement": "Right ascension and declination of the Moon interpolated by interpolate_angle3 and interpolate3 from its places at 0h of three days are those the code finds for the time itself, to 653 and 694 seconds of arc. So within a tenth of the precision of a time returned by transit the Moon is in the meridian to 653 seconds of arc; a transit of the Moon itself is returned to a tenth of the precision and 48 seconds of time; and at a time returned by _riseset the Moon has the altitude asked for, to 18 times the precision and 22.5 minutes of arc.", "quantifier": "all days within 1990 years of J2000, all times between the first and the last day, all longitudes and latitudes", "why_tests_cant": "the third differences of two series of 60 terms, the nutation and a rotation, for all real times", "anchors": ["src/astronomia/riseset.py:transit", "src/astronomia/riseset.py:_riseset", "src/astronomia/riseset.py:28", "src/astronomia/util.py:interpolate_angle3", "src/astronomia/apps/cronus.py:initRST"]}
{"id": "C105", "title": "the transit lines of cronus", "statement": "When a day comes up in cronus, each of the nine bodies either gets one line, for the time transit returns, or is reported as a failure because transit returned nothing; nothing else is queued but the next day. The line of the Sun (Moon) is queued for a universal time within 0.101 second of one at which it is in the meridian to 2.1 (653) seconds of arc, and a transit of the Sun between the first and last tenth of a day gets a line, for a time within 0.27 second. But the text is wrong: dt_to_ut is applied to the universal time, so that the time displayed is early by Delta T (to 0.12 second), by more than 63 seconds in 2000.", "quantifier": "all runs, all days (text: from 1621 to 2014), all longitudes, every conversion to local time, every IEEE rounding", "why_tests_cant": "the times are those of a real analytic model, the text depends on a chain of conversions with rounding", "anchors": ["src/astronomia/apps/cronus.py:doRiseSetTransit", "src/astronomia/riseset.py:transit", "src/astronomia/dynamical.py:dt_to_ut"]}
{"id": "C106", "title": "the program which makes the text database", "statement": "create_text_vsop_db converts the eight files of the VSOP87 distribution to the text database: a line with planet, coordinate, degree and number of terms for each series, then a line with amplitude, phase and frequency as written for each term, in the order of the files. If it ends without an exception all files were there, every header had the version and the name of the planet and was followed by the announced number of records of its version, coordinate and degree, and one line was printed for each record. (The first part is true with the string.strip of Python 2 only. With Python 3, which the program needs for its :=, it stops with an AttributeError at the first term, and no term is ever printed.)", "quantifier": "all files in the format of the distribution, any number of series and terms; the checks and the failure for all files whatever", "why_tests_cant": "files of any length and content", "anchors": ["devutils/create_text_vsop_db.py"]}
{"id": "C107", "title": "transits of the planets", "statement": "On every day each of the nine bodies in the table of cronus, the planets included, moves slowly enough in right ascension (at most 0.26 radian a day for a planet, changing by at most 0.095) for the transit search to be correct: the time queued for its transit is within a ninth of a second of a time at which the body, with right ascension interpolated from three days, is in the meridian; a crossing in the middle eight tenths of a completed day always gives a line; and a failure is printed only for a body which crosses in the last fifth of the day or shortly afterwards.", "quantifier": "all planets, all days within 720000 days of 2000 (the motion: 5.89 millennia), all longitudes in [-pi, pi]; the last part for the years 1621 to 2014", "why_tests_cant": "a bound on the second difference of a series with hundreds of terms over eleven thousand years", "anchors": ["src/astronomia/apps/cronus.py:doRiseSetTransit", "src/astronomia/riseset.py:transit", "src/astronomia/planets.py:geocentric_planet"]}
{"id": "C108", "title": "how long cronus can run", "statement": "_riseset brings its first estimate into [0, 1] by adding or subtracting 1 at most once and raises if this is not enough. With the longitude and latitude it uses (default arguments, both 0) rise raises for the Moon on some day within 400 days of any day, so that even with a working conversion to local time cronus does at most 400 days and never reaches an end more than 402 days after its start. (A defect: m should be reduced modulo 1.)", "quantifier": "all start years from 100 to 3900, all stop days, all conversions to local time and all roundings", "why_tests_cant": "the failure depends on sidereal time and the longitude of the Moon falling together, which happens on few days of a year", "anchors": ["src/astronomia/riseset.py:_riseset", "src/astronomia/apps/cronus.py:doRiseSetTransit"]}
{"id": "C109", "title": "the transits of the planets are transits", "statement": "The right ascension interpolated from three days differs from the one geocentric_planet computes for the time itself by at most 0.03 radian for Mercury, 0.02 for Venus, 0.0237 for Mars, 45 seconds of arc for Jupiter, 24 for Saturn, 10 for Uranus and 7 for Neptune. So at a time within a ninth of a second of the one queued by cronus for a transit the planet is in the meridian up to this, and a planet in the meridian in the middle of a day gets a line for a time which differs by at most the time in which the sky turns by this.", "quantifier": "all planets, all times within a day of any day within 5.89 millennia of 2000 (transits: 3 millennia; lines of cronus: 720000 days, text of the lines 1621 to 2014), all longitudes in [-pi, pi]", "why_tests_cant": "the error of interpolation is a supremum over eleven thousand years, and is largest where a planet is closest to the Earth", "anchors": ["src/astronomia/riseset.py:transit", "src/astronomia/util.py:interpolate_angle3", "src/astronomia/planets.py:geocentric_planet", "src/astronomia/apps/cronus.py:doRiseSetTransit"]}
