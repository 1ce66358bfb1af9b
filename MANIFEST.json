{
 "claims": [
  {
   "property": "C01",
   "status": "proved",
   "theorems": [
    "Verif.cal_to_jd_whole_day",
    "Verif.cal_to_jd_counts_days",
    "Verif.cal_to_jd_julian",
    "Verif.cal_to_jd_gregorian_positive",
    "Verif.reform",
    "Verif.j2000",
    "Verif.cal_to_jd_dyadic_day",
    "Verif.cal_to_jd_within_day",
    "Verif.cal_to_jd_error",
    "Verif.cal_to_jd_exact"
   ],
   "note": "every FloatLike arithmetic; exceptional Gregorian dates characterised"
  },
  {
   "property": "C02",
   "status": "proved",
   "theorems": [
    "Verif.cal_to_jd_accepts_iff",
    "Verif.cal_to_jd_refuses_valueError",
    "Verif.cal_to_jd_message",
    "Verif.cal_to_jd_refuses_last_day_fraction",
    "Verif.cal_to_jd_refuses_fractional_year",
    "Verif.cal_to_jd_refuses_fractional_month",
    "Verif.cal_to_jd_accepts_negative_fractional_year"
   ],
   "note": ""
  },
  {
   "property": "C05",
   "status": "proved",
   "theorems": [
    "Verif.cal_to_jd_strictMono",
    "Verif.cal_to_jd_mono",
    "Verif.cal_to_jd_next_day",
    "Verif.cal_to_jd_not_injective"
   ],
   "note": ""
  },
  {
   "property": "C07",
   "status": "proved",
   "theorems": [
    "Verif.is_leap_year_iff"
   ],
   "note": ""
  },
  {
   "property": "C03",
   "status": "proved",
   "theorems": [
    "Verif.jd_to_cal_date",
    "Verif.jd_to_cal_total",
    "Verif.jd_to_cal_exact",
    "Verif.jd_to_cal_binary64",
    "Verif.jd_to_cal_binary64_exact",
    "Verif.jd_to_cal_j2000"
   ],
   "note": "the exceptional days BadDay are part of the statement; upper limit 2^39 days"
  },
  {
   "property": "C04",
   "status": "proved",
   "theorems": [
    "Verif.jd_to_cal_cal_to_jd",
    "Verif.jd_to_cal_cal_to_jd_bad",
    "Verif.jd_to_cal_cal_to_jd_exceptional",
    "Verif.jd_to_cal_cal_to_jd_dyadic",
    "Verif.cal_to_jd_jd_to_cal",
    "Verif.cal_to_jd_jd_to_cal_modern"
   ],
   "note": "all three behaviours on the exceptional dates are theorems"
  },
  {
   "property": "C06",
   "status": "proved",
   "theorems": [
    "Verif.cal_to_jd_array_accepts",
    "Verif.cal_to_jd_array_values",
    "Verif.cal_to_jd_array_shape",
    "Verif.is_leap_year_array",
    "Verif.jd_to_cal_array",
    "Verif.easter_array",
    "Verif.jd_to_day_of_week_array",
    "Verif.cal_to_day_of_year_array",
    "Verif.day_of_year_to_cal_array",
    "Verif.day_of_year_array_shape"
   ],
   "note": ""
  },
  {
   "property": "C08",
   "status": "proved",
   "theorems": [
    "Verif.cal_to_day_of_year_eq",
    "Verif.cal_to_day_of_year_range",
    "Verif.cal_to_day_of_year_cal_to_jd"
   ],
   "note": ""
  },
  {
   "property": "C09",
   "status": "proved",
   "theorems": [
    "Verif.day_of_year_to_cal_spec",
    "Verif.day_of_year_round_trip",
    "Verif.day_of_year_round_trip'",
    "Verif.day_of_year_to_cal_fraction"
   ],
   "note": ""
  },
  {
   "property": "C10",
   "status": "proved",
   "theorems": [
    "Verif.jd_to_day_of_week_eq",
    "Verif.jd_to_day_of_week_exact",
    "Verif.jd_to_day_of_week_binary64",
    "Verif.jd_to_day_of_week_midnight",
    "Verif.jd_to_day_of_week_range",
    "Verif.jd_to_day_of_week_next",
    "Verif.jd_to_day_of_week_j2000"
   ],
   "note": "constancy during the day: without exception in exact arithmetic and within a binade, otherwise up to one rounding error before midnight"
  },
  {
   "property": "C11",
   "status": "proved",
   "theorems": [
    "Verif.easter_window",
    "Verif.easter_sunday",
    "Verif.easter_2024"
   ],
   "note": "the library's own weekday is Monday in negative Gregorian century years (C01)"
  },
  {
   "property": "C12",
   "status": "proved",
   "theorems": [
    "Verif.easter_spec",
    "Verif.isEaster_unique",
    "Verif.epact_step",
    "Verif.solar_step",
    "Verif.lunarCorr_step",
    "Verif.epact_1583"
   ],
   "note": ""
  },
  {
   "property": "C13",
   "status": "proved",
   "theorems": [
    "Verif.easter_spec",
    "Verif.isEaster_unique",
    "Verif.easter_julian_period",
    "Verif.easter_julian_period_minimal"
   ],
   "note": ""
  },
  {
   "property": "C14",
   "status": "proved",
   "theorems": [
    "Verif.easter_gregorian_period",
    "Verif.easter_gregorian_period_minimal"
   ],
   "note": ""
  },
  {
   "property": "C15",
   "status": "proved",
   "theorems": [
    "Verif.frac_yr_to_jd_array",
    "Verif.frac_yr_to_jd_float",
    "Verif.frac_yr_to_jd_exact",
    "Verif.frac_yr_to_jd_mono",
    "Verif.frac_yr_to_jd_strictMono",
    "Verif.frac_yr_to_jd_ignores_calendar",
    "Verif.frac_yr_to_jd_negative_inconsistent"
   ],
   "note": "the ignored calendar flag and the inconsistency for negative years are theorems"
  },
  {
   "property": "C16",
   "status": "proved",
   "theorems": [
    "Verif.yr_frac_mon_to_jd_array",
    "Verif.yr_frac_mon_to_jd_float",
    "Verif.yr_frac_mon_to_jd_exact",
    "Verif.yr_frac_mon_to_jd_refuses",
    "Verif.yr_frac_mon_to_jd_ignores_calendar",
    "Verif.yr_frac_mon_to_jd_all_years",
    "Verif.february_of_bad_century"
   ],
   "note": "arrays for years from 0; single values from -4712 with the exceptional months"
  },
  {
   "property": "C17",
   "status": "proved",
   "theorems": [
    "Verif.hms_round_trip_exact",
    "Verif.hms_round_trip_float",
    "Verif.hms_round_trip_fails",
    "Verif.hms_to_fday_scalar"
   ],
   "note": "exact in exact arithmetic; in binary64 up to one second, with the failing case as a theorem"
  },
  {
   "property": "C18",
   "status": "proved",
   "theorems": [
    "Verif.fday_to_hms_eq",
    "Verif.fday_to_hms_range",
    "Verif.fday_to_hms_exact"
   ],
   "note": ""
  },
  {
   "property": "C19",
   "status": "proved",
   "theorems": [
    "Verif.cal_to_jde_scalar",
    "Verif.cal_to_jde_exact",
    "Verif.cal_to_jde_error",
    "Verif.cal_to_jde_array",
    "Verif.cal_to_jde_no_time_check"
   ],
   "note": ""
  },
  {
   "property": "C20",
   "status": "proved",
   "theorems": [
    "Verif.lt_to_str_text",
    "Verif.lt_to_str_exact",
    "Verif.lt_to_str_float_minutes"
   ],
   "note": "negative part (minutes printed as a float) is a theorem"
  },
  {
   "property": "C21",
   "status": "proved",
   "theorems": [
    "Verif.is_dst_never_returns",
    "Verif.is_dst_type_error",
    "Verif.ut_to_lt_never_returns"
   ],
   "note": "the documented behaviour is refuted for every input"
  },
  {
   "property": "C22",
   "status": "proved",
   "theorems": [
    "Verif.sidereal_time_spec",
    "Verif.sidereal_time_j2000",
    "Verif.sidereal_time_daily"
   ],
   "note": "real arithmetic"
  },
  {
   "property": "C23",
   "status": "proved",
   "theorems": [
    "Verif.modpi2_spec",
    "Verif.mod360_spec",
    "Verif.congr_unique",
    "Verif.modpi2_eq_iff",
    "Verif.modpi2_modpi2",
    "Verif.floatMod_spec",
    "Verif.mod360_upper_end"
   ],
   "note": ""
  },
  {
   "property": "C24",
   "status": "proved",
   "theorems": [
    "Verif.diff_angle_congr",
    "Verif.diff_angle_range",
    "Verif.diff_angle_range_iff",
    "Verif.diff_angle_antisymm",
    "Verif.diff_angle_opposite"
   ],
   "note": ""
  },
  {
   "property": "C25",
   "status": "proved",
   "theorems": [
    "Verif.d_to_dms_spec",
    "Verif.dms_to_d_exact",
    "Verif.dms_round_trip",
    "Verif.dms_to_d_refuses_arrays",
    "Verif.d_to_dms_float",
    "Verif.dms_round_trip_float"
   ],
   "note": ""
  },
  {
   "property": "C26",
   "status": "proved",
   "theorems": [
    "Verif.degree_radian",
    "Verif.dToR_mod360"
   ],
   "note": ""
  },
  {
   "property": "C27",
   "status": "proved",
   "theorems": [
    "Verif.interpolate3_refuses_iff",
    "Verif.interpolate3_error",
    "Verif.interpolate3_quadratic",
    "Verif.quadratic_unique",
    "Verif.interpolate3_zero",
    "Verif.interpolate3_zero_float"
   ],
   "note": ""
  },
  {
   "property": "C28",
   "status": "proved",
   "theorems": [
    "Verif.interpolate_angle3_refuses_iff",
    "Verif.interpolate_angle3_spec",
    "Verif.interpolate_angle3_large_second_difference"
   ],
   "note": ""
  },
  {
   "property": "C29",
   "status": "proved",
   "theorems": [
    "Verif.polynomial_eq_sum",
    "Verif.polynomial_empty",
    "Verif.polynomial_const"
   ],
   "note": ""
  },
  {
   "property": "C30",
   "status": "proved",
   "theorems": [
    "Verif.load_params_assigns",
    "Verif.load_params_idempotent",
    "Verif.load_params_swap",
    "Verif.load_params_cases"
   ],
   "note": ""
  },
  {
   "property": "C31",
   "status": "proved",
   "theorems": [
    "Verif.load_params_fault",
    "Verif.load_params_missing_text",
    "Verif.load_params_cases"
   ],
   "note": ""
  },
  {
   "property": "C32",
   "status": "proved",
   "theorems": [
    "Verif.deltaT_interpolates",
    "Verif.deltaT_segment",
    "Verif.deltaT_at_entry",
    "Verif.deltaT_between",
    "Verif.deltaT_range",
    "Verif.deltaT_lipschitz",
    "Verif.deltaT_float"
   ],
   "note": "exact arithmetic, with a binary64 error bound of 1e-11 s"
  },
  {
   "property": "C33",
   "status": "proved",
   "theorems": [
    "Verif.deltaT_outside",
    "Verif.deltaT_outside_date",
    "Verif.deltaTFormula_eq",
    "Verif.deltaT_joins",
    "Verif.deltaT_jump_1621"
   ],
   "note": "the jumps of the formula are theorems"
  },
  {
   "property": "C34",
   "status": "proved",
   "theorems": [
    "Verif.dt_to_ut_strictMono",
    "Verif.dt_to_ut_rate",
    "Verif.dt_to_ut_close",
    "Verif.dt_to_ut_float",
    "Verif.dt_to_ut_decreases_1621",
    "Verif.dt_to_ut_decreases_2030"
   ],
   "note": "exact arithmetic, with a binary64 error bound of 6e-10 d"
  },
  {
   "property": "C59",
   "status": "proved",
   "theorems": [
    "Verif.load_params_file",
    "Verif.load_params_ignores_missing_env"
   ],
   "note": ""
  },
  {
   "property": "C60",
   "status": "proved",
   "theorems": [
    "Verif.lex_words",
    "Verif.lex_comment_joins",
    "Verif.lex_comment_example",
    "Verif.load_params_plus_sign",
    "Verif.lex_nonempty",
    "Verif.lex_quoted",
    "Verif.lex_unclosed_quote",
    "Verif.load_params_unclosed_quote"
   ],
   "note": ""
  },
  {
   "property": "C35",
   "status": "proved",
   "theorems": [
    "Verif.ecl_to_equ_rotates",
    "Verif.ecl_to_equ_range",
    "Verif.ecl_to_equ_unique",
    "Verif.ecl_to_equ_cardinal"
   ],
   "note": "exact real arithmetic; the output direction is the input direction turned about the x axis by the obliquity, with right ascension in [0,2pi) and declination in [-pi/2,pi/2], which determine it uniquely"
  },
  {
   "property": "C36",
   "status": "proved",
   "theorems": [
    "Verif.equ_to_ecl_rotates",
    "Verif.equ_to_ecl_range",
    "Verif.ecl_to_equ_equ_to_ecl",
    "Verif.equ_to_ecl_ecl_to_equ",
    "Verif.ecliptic_round_trip",
    "Verif.equ_to_ecl_south"
   ],
   "note": "exact real arithmetic; equ_to_ecl_south: southern latitudes come back increased by a full turn (defect)"
  },
  {
   "property": "C37",
   "status": "proved",
   "theorems": [
    "Verif.equ_to_horiz_rotates",
    "Verif.equ_to_horiz_range",
    "Verif.equ_to_horiz_unique",
    "Verif.equ_to_horiz_culmination",
    "Verif.equ_to_horiz_west"
   ],
   "note": "exact real arithmetic"
  },
  {
   "property": "C38",
   "status": "proved",
   "theorems": [
    "Verif.ell_to_geo_spec",
    "Verif.ellipse_foot_unique",
    "Verif.ell_to_geo_radius",
    "Verif.ell_to_geo_wrong_unit",
    "Verif.ell_to_geo_pole_equator"
   ],
   "note": "exact real arithmetic; ell_to_geo_wrong_unit negates the documented unit"
  },
  {
   "property": "C39",
   "status": "proved",
   "theorems": [
    "Verif.vsopDict_lookup_iff",
    "Verif.vsop_dimension_value",
    "Verif.vsop_dimension_unknown"
   ],
   "note": "exact real arithmetic, all eight planets' generated tables"
  },
  {
   "property": "C40",
   "status": "proved",
   "theorems": [
    "Verif.vsop_dimension_array",
    "Verif.vsop_dimension_repeated",
    "Verif.vsop_dimension_array_wrong"
   ],
   "note": "negated: an array of times gives sums over the time axis; proved what the array result is and that it differs from the scalar results"
  },
  {
   "property": "C41",
   "status": "proved",
   "theorems": [
    "Verif.planets_physical_2",
    "Verif.planets_physical_6",
    "Verif.orbits_ordered",
    "Verif.planets_distance_order"
   ],
   "note": "for all real times within 2000 (6000) years of J2000"
  },
  {
   "property": "C42",
   "status": "proved",
   "theorems": [
    "Verif.sun_dimension3_value",
    "Verif.sun_opposite_earth",
    "Verif.sun_dimension_unknown"
   ],
   "note": ""
  },
  {
   "property": "C56",
   "status": "proved",
   "theorems": [
    "Verif.vsop_shared_table",
    "Verif.vsop_instances_agree",
    "Verif.vsop_before_construction"
   ],
   "note": ""
  },
  {
   "property": "C61",
   "status": "proved",
   "theorems": [
    "Verif.planets_advance"
   ],
   "note": "for all pairs of real times within the stated era"
  },
  {
   "property": "C43",
   "status": "proved",
   "theorems": [
    "Verif.nutation_in_longitude_value",
    "Verif.nutation_in_obliquity_value",
    "Verif.nutation_growth",
    "Verif.nutation_small",
    "Verif.nutation_main_term",
    "Verif.nutation_j2000"
   ],
   "note": "exact real arithmetic; holds within thirty centuries"
  },
  {
   "property": "C44",
   "status": "proved",
   "theorems": [
    "Verif.obliquity_agree",
    "Verif.obliquity_range",
    "Verif.obliquity_J2000"
   ],
   "note": "exact real arithmetic"
  },
  {
   "property": "C45",
   "status": "proved",
   "theorems": [
    "Verif.lunar_dimension3_value",
    "Verif.lunar_dimension_unknown",
    "Verif.lunar_dimension_error",
    "Verif.lunar_longitude_value",
    "Verif.lunar_radius_value",
    "Verif.lunar_latitude_value",
    "Verif.lunar_bounds",
    "Verif.lunar_longitude_range",
    "Verif.lunar_longitude_negative"
   ],
   "note": "exact real arithmetic; lunar_longitude_negative: the longitude is not reduced to one turn"
  },
  {
   "property": "C46",
   "status": "proved",
   "theorems": [
    "Verif.longitude_radius_low_value",
    "Verif.longitude_radius_low_radius",
    "Verif.apparent_longitude_low_value",
    "Verif.aberration_low_value",
    "Verif.equation_of_center_sign"
   ],
   "note": "exact real arithmetic; equation_of_center_sign: a double sign in the code changes the published formula"
  },
  {
   "property": "C62",
   "status": "proved",
   "theorems": [
    "Verif.lunar_mean_values",
    "Verif.lunar_mean_range",
    "Verif.lunar_perigee_consistent",
    "Verif.sun_longitude_consistent",
    "Verif.sun_perigee_consistent",
    "Verif.node_published",
    "Verif.lunar_node_value",
    "Verif.lunar_node_consistent",
    "Verif.lunar_node_inconsistent"
   ],
   "note": "exact real arithmetic; lunar_node_inconsistent: sign error in the last coefficient of the node"
  },
  {
   "property": "C47",
   "status": "proved",
   "theorems": [
    "Verif.equinox_approx_out_of_range",
    "Verif.equinox_approx_unknown_season",
    "Verif.equinox_approx_fractional",
    "Verif.equinox_approx_order",
    "Verif.equinox_approx_year",
    "Verif.equinox_tables_meet"
   ],
   "note": "exact real arithmetic; equinox_tables_meet: the two tables disagree by 42 s for the summer of year 1000 because of a sign in the code"
  },
  {
   "property": "C48",
   "status": "proved",
   "theorems": [
    "Verif.apparent_sun_value",
    "Verif.events_apart",
    "Verif.event_exists",
    "Verif.equinox_converges",
    "Verif.equinox_unknown_season",
    "Verif.equinox_delta_nonpos",
    "Verif.equinox_nearest"
   ],
   "note": "exact real arithmetic, |millennia from J2000| <= 5.9"
  },
  {
   "property": "C63",
   "status": "proved",
   "theorems": [
    "Verif.equinox_approx_date"
   ],
   "note": "exact real arithmetic"
  },
  {
   "property": "C64",
   "status": "proved",
   "theorems": [
    "Verif.equinox_of_approx",
    "Verif.equinox_seasons_ordered"
   ],
   "note": "exact real arithmetic"
  },
  {
   "property": "C49",
   "status": "proved",
   "theorems": [
    "Verif.geocentric_planet_accurate",
    "Verif.geocentric_three_passes",
    "Verif.geocentric_delta_nonpos",
    "Verif.geocentric_coarse",
    "Verif.geocentric_unknown",
    "Verif.geocentric_earth"
   ],
   "note": "exact real arithmetic; single times"
  },
  {
   "property": "C50",
   "status": "proved",
   "theorems": [
    "Verif.vsop_to_fk5_small",
    "Verif.vsop_to_fk5_planets",
    "Verif.vsop_to_fk5_j2000"
   ],
   "note": "exact real arithmetic"
  },
  {
   "property": "C52",
   "status": "proved",
   "theorems": [
    "Verif.transit_sound",
    "Verif.transit_found",
    "Verif.transit_none",
    "Verif.transit_refused_iff",
    "Verif.transit_delta_nonpos",
    "Verif.transit_dropped",
    "Verif.transit_refuses"
   ],
   "note": "times returned are transits, midday transits are found, exact outcomes; witnesses for the dropped event at the end of the day and for the refused estimate in the east"
  },
  {
   "property": "C51",
   "status": "proved",
   "theorems": [
    "Verif.rise_returns_none",
    "Verif.settime_returns_none",
    "Verif.rise_discards"
   ],
   "note": "negated expectation: the value is always None; rise_discards exhibits an event that is computed and thrown away"
  },
  {
   "property": "C53",
   "status": "proved",
   "theorems": [
    "Verif.riseset_sound",
    "Verif.riseset_never_rises",
    "Verif.riseset_circumpolar",
    "Verif.riseset_passes",
    "Verif.riseset_refused_iff",
    "Verif.riseset_found",
    "Verif.riseset_delta_nonpos",
    "Verif.riseset_star",
    "Verif.riseset_refuses"
   ],
   "note": "exact real arithmetic; riseset_refuses: a rising at Greenwich refused with an exception (defect)"
  },
  {
   "property": "C65",
   "status": "proved",
   "theorems": [
    "Verif.moon_altitude_antitone",
    "Verif.moon_altitude_range"
   ],
   "note": "exact real arithmetic"
  },
  {
   "property": "C54",
   "status": "proved",
   "theorems": [
    "Verif.cronus_ordered",
    "Verif.cronus_seasons_ordered",
    "Verif.cronus_transits_late",
    "Verif.cronus_out_of_order"
   ],
   "note": "start years from -1000, times below 2^40; cronus_out_of_order is a witness from a loop state satisfying the invariants, with a repaired conversion to local time (with the code's one no event is displayed at all, C55)"
  },
  {
   "property": "C55",
   "status": "proved",
   "theorems": [
    "Verif.cronus_no_stop",
    "Verif.cronus_stop_is_jd",
    "Verif.cronus_displays_nothing",
    "Verif.cronus_raises",
    "Verif.cronus_always_raises"
   ],
   "note": "defects: the stop year is compared with Julian Days, and the conversion to local time always raises"
  },
  {
   "property": "C66",
   "status": "proved",
   "theorems": [
    "Verif.heappush_spec",
    "Verif.heappop_spec",
    "Verif.heap_sorts",
    "Verif.heap_unstable"
   ],
   "note": "model of CPython's heapq"
  },
  {
   "property": "C67",
   "status": "proved",
   "theorems": [
    "Verif.cronus_easter",
    "Verif.easterLine_text"
   ],
   "note": "for every conversion to local time (with the code's one the run raises before the first line)"
  },
  {
   "property": "C68",
   "status": "proved",
   "theorems": [
    "Verif.cronus_tables",
    "Verif.cronus_no_risings"
   ],
   "note": "start years from -1000"
  },
  {
   "property": "C57",
   "status": "proved",
   "theorems": [
    "Verif.easter_cgi_checks",
    "Verif.easter_cgi_rows",
    "Verif.easter_cgi_constant",
    "Verif.easter_cgi_no_date",
    "Verif.easter_cgi_bad_year",
    "Verif.easter_cgi_default",
    "Verif.easter_form_submitted",
    "Verif.int_text_no_quote",
    "Verif.form_years_given",
    "Verif.form_years_default",
    "Verif.form_years_start",
    "Verif.pyRange_sorted",
    "Verif.mem_pyRange",
    "Verif.pyInt_toString"
   ],
   "note": "the claim that the page shows the dates is refuted (easter_cgi_no_date, easter_cgi_constant); the validation is as documented"
  },
  {
   "property": "C58",
   "status": "proved",
   "theorems": [
    "Verif.standard_zones_hours",
    "Verif.daylight_zones_hours",
    "Verif.zone_names",
    "Verif.form_zones_given",
    "Verif.zone_direction",
    "Verif.solstice_cgi_no_zone",
    "Verif.solstice_cgi_raises",
    "Verif.solstice_cgi_default",
    "Verif.solstice_form_submitted",
    "Verif.solstice_form_zones",
    "Verif.solstice_cgi_repaired"
   ],
   "note": "no submission gives a cell with the conversion to local time of the code; with a working one the table is complete"
  },
  {
   "property": "C69",
   "status": "proved",
   "theorems": [
    "Verif.solstice_repaired",
    "Verif.solstice_raises",
    "Verif.solstice_stop",
    "Verif.seasonTime_repaired"
   ],
   "note": "solstice_raises refutes the documented behaviour for the code, solstice_repaired proves it for any conversion to local time which does not raise"
  },
  {
   "property": "C70",
   "status": "proved",
   "theorems": [
    "Verif.sun_rise_raises"
   ],
   "note": "the documented behaviour is refuted"
  },
  {
   "property": "C71",
   "status": "proved",
   "theorems": [
    "Verif.sun_place_apparent",
    "Verif.cronus_place_sun",
    "Verif.cronus_place_planet",
    "Verif.cronus_place_moon",
    "Verif.moon_place_nutation_twice",
    "Verif.moon_place_off",
    "Verif.moon_place_off_j2000",
    "Verif.moon_place_altitude"
   ],
   "note": "the claim about the Moon is refuted with a lower bound of the error at J2000"
  },
  {
   "property": "C72",
   "status": "proved",
   "theorems": [
    "Verif.moon_advances",
    "Verif.moon_reaches",
    "Verif.moon_returns_apart",
    "Verif.moon_phase_exists",
    "Verif.moon_phase_apart",
    "Verif.moon_phases_ordered",
    "Verif.moon_rates",
    "Verif.moon_nodes",
    "Verif.moon_apsides"
   ],
   "note": "rates from the sums of the tables, existence by the intermediate value theorem"
  },
  {
   "property": "C73",
   "status": "proved",
   "theorems": [
    "Verif.mercury_elongation",
    "Verif.venus_elongation",
    "Verif.cronus_inner_planets"
   ],
   "note": "the distance bounds of the tables, the light time and the aberration are all accounted for"
  },
  {
   "property": "C74",
   "status": "proved",
   "theorems": [
    "Verif.planet_period",
    "Verif.planet_synodic",
    "Verif.planets_speed_order"
   ],
   "note": "tables of periods are the specification; all 28 pairs"
  },
  {
   "property": "C75",
   "status": "proved",
   "theorems": [
    "Verif.vsop_float_2",
    "Verif.vsop_float_6",
    "Verif.vsop_float_any",
    "Verif.vsop_float_refuses"
   ],
   "note": "cosine and summation of NumPy enter as hypotheses CosLike and SumLike, both shown satisfiable"
  },
  {
   "property": "C76",
   "status": "proved",
   "theorems": [
    "Verif.nutation_float",
    "Verif.apparent_sun_float",
    "Verif.equinox_float",
    "Verif.equinox_float_2",
    "Verif.equinox_float_6",
    "Verif.equinox_float_any",
    "Verif.equinox_float_nearest",
    "Verif.equinox_float_unknown",
    "Verif.equinox_float_nonpos"
   ],
   "note": "the functions of NumPy enter as the hypothesis NumLib.Good, shown satisfiable"
  },
  {
   "property": "C77",
   "status": "proved",
   "theorems": [
    "Verif.equinox_approx_float",
    "Verif.equinox_approx_float_refuses",
    "Verif.equinox_approx_float_fractional",
    "Verif.equinox_year_float",
    "Verif.equinox_seasons_float"
   ],
   "note": "cosine and the builtin sum enter as hypotheses CosLike and PySumLike, both shown satisfiable"
  },
  {
   "property": "C78",
   "status": "proved",
   "theorems": [
    "Verif.lunar_float",
    "Verif.lunar_float_bounds",
    "Verif.lunar_float_dimension",
    "Verif.lunar_mean_float",
    "Verif.lunar_float_advances"
   ],
   "note": "the functions of NumPy enter as the hypothesis NumLib.Good, shown satisfiable"
  },
  {
   "property": "C79",
   "status": "proved",
   "theorems": [
    "Verif.ecl_to_equ_float",
    "Verif.ecl_to_equ_float_zodiac",
    "Verif.equ_to_ecl_float",
    "Verif.equ_to_horiz_float",
    "Verif.equ_to_horiz_zenith_nan"
   ],
   "note": "the functions of NumPy enter as the hypothesis TrigLib.Good, shown satisfiable (trigLib_exists, zenith_lib_exists)"
  },
  {
   "property": "C80",
   "status": "proved",
   "theorems": [
    "Verif.geocentric_planet_float",
    "Verif.geocentric_passes_float",
    "Verif.geocentric_unknown_float",
    "Verif.geocentric_delta_nonpos_float"
   ],
   "note": "the functions of NumPy enter as the hypothesis GeoLib.Good, shown satisfiable (geoLib_exists)"
  },
  {
   "property": "C81",
   "status": "proved",
   "theorems": [
    "Verif.jd_to_jcent_exact",
    "Verif.jd_to_jcent_mono",
    "Verif.jd_to_jcent_float",
    "Verif.jd_to_jcent_whole",
    "Verif.jd_to_jcent_nearest",
    "Verif.jcentF_eq"
   ],
   "note": ""
  },
  {
   "property": "C82",
   "status": "proved",
   "theorems": [
    "Verif.easter_float",
    "Verif.easter_float_isEaster",
    "Verif.easter_fraction"
   ],
   "note": "NumPy's float remainder and floor division; easter_fraction refutes the claim for fractions of a year"
  },
  {
   "property": "C83",
   "status": "proved",
   "theorems": [
    "Verif.sidereal_float",
    "Verif.siderealF_2000"
   ],
   "note": ""
  },
  {
   "property": "C84",
   "status": "proved",
   "theorems": [
    "Verif.transit_float_sound",
    "Verif.transit_float_found",
    "Verif.transit_float_outcome",
    "Verif.deltaTDaysF_near",
    "Verif.transit_float_sound_table",
    "Verif.transit_float_found_table",
    "Verif.transit_float_refuses",
    "Verif.transit_float_dropped",
    "Verif.transit_float_sound_all",
    "Verif.transit_float_found_all"
   ],
   "note": "transit_float_refuses and transit_float_dropped show that the defects of C52 remain with floats"
  },
  {
   "property": "C85",
   "status": "proved",
   "theorems": [
    "Verif.riseset_float_found",
    "Verif.riseset_float_sound",
    "Verif.riseset_float_never_rises",
    "Verif.riseset_float_circumpolar",
    "Verif.riseset_float_found_table",
    "Verif.riseset_float_sound_table",
    "Verif.riseset_float_star",
    "Verif.riseset_float_found_all",
    "Verif.riseset_float_sound_all"
   ],
   "note": "the contraction of C53 with rounding noise; h0 within 0.1 for found, 0.5 for the other theorems; the margin of the None theorems is 1e-13"
  },
  {
   "property": "C86",
   "status": "proved",
   "theorems": [
    "Verif.ecl_to_equ_arrays",
    "Verif.equ_to_ecl_arrays",
    "Verif.equ_to_horiz_arrays",
    "Verif.ell_to_geo_arrays",
    "Verif.sun_mean_longitude_arrays",
    "Verif.sun_mean_longitude_perigee_arrays",
    "Verif.longitude_radius_low_arrays",
    "Verif.apparent_longitude_low_arrays",
    "Verif.vsop_to_fk5_arrays",
    "Verif.geocentric_planet_arrays_refused",
    "Verif.geocentric_planet_arrays_unknown",
    "Verif.geocentric_planet_one"
   ],
   "note": "refuted for geocentric_planet: geocentric_planet_arrays_refused holds for every array of two or more times; geocentric_planet_one shows that the array model and the scalar model agree for one time"
  },
  {
   "property": "C87",
   "status": "proved",
   "theorems": [
    "Verif.obliquity_float",
    "Verif.obliquity_float_agree",
    "Verif.sun_mean_longitude_float",
    "Verif.sun_mean_longitude_perigee_float",
    "Verif.longitude_radius_low_float",
    "Verif.apparent_longitude_low_float",
    "Verif.apparent_low_float",
    "Verif.ell_to_geo_float",
    "Verif.moon_rst_altitude_float",
    "Verif.moon_rst_altitude_float_range"
   ],
   "note": "against the formulas of C44, C46, C62 and C65; ell_to_geo against the real function of C38"
  },
  {
   "property": "C88",
   "status": "proved",
   "theorems": [
    "Verif.vsop_check_values",
    "Verif.vsop_check_values_float",
    "Verif.vsop_check_covers"
   ],
   "note": "the kernel evaluates the 31577 rows at the ten dates with a cosine in natural numbers, whose error is proved (cosN_near)"
  },
  {
   "property": "C89",
   "status": "proved",
   "theorems": [
    "Verif.equinox_approx_accuracy",
    "Verif.equinox_approx_against_equinox",
    "Verif.equinox_approx_accuracy_float"
   ],
   "note": "the kernel evaluates the longitude of the Sun for all 16004 results: 1024 years at once in packed natural numbers (blockN, error proved in block_lambda), and the 97 results of largest error one by one (ptOK, proved in point_event); the largest error, summer -408, is 2.1556 minutes"
  },
  {
   "property": "C90",
   "status": "proved",
   "theorems": [
    "Verif.published_event",
    "Verif.equinox_meets_published",
    "Verif.equinox_meets_published_float",
    "Verif.equinox_published_one_second"
   ],
   "note": "the published table is Spec/Seasons.lean; the kernel evaluates the longitude of the Sun at the 41 published times (pubOK, proved in pub_event)"
  },
  {
   "property": "C91",
   "status": "proved",
   "theorems": [
    "Verif.moon_1992",
    "Verif.moon_2013",
    "Verif.nutation_1987",
    "Verif.nutation_2013",
    "Verif.mean_elements_schureman",
    "Verif.sun_low_1992",
    "Verif.sun_1992",
    "Verif.moon_1992_float",
    "Verif.moon_2013_float",
    "Verif.nutation_published_float"
   ],
   "note": "published values in the statements and in Spec/Examples.lean; the kernel evaluates the series at the four times (Lemmas/MoonPublished.lean, Lemmas/SunPublished.lean)"
  },
  {
   "property": "C92",
   "status": "proved",
   "theorems": [
    "Verif.nutation_in_longitude_arrays",
    "Verif.nutation_in_obliquity_arrays",
    "Verif.obliquity_arrays",
    "Verif.obliquity_hi_arrays",
    "Verif.lunar_longitude_arrays",
    "Verif.lunar_latitude_arrays",
    "Verif.lunar_radius_arrays",
    "Verif.lunar_dimension3_arrays",
    "Verif.lunar_dimension_arrays",
    "Verif.lunar_mean_arrays",
    "Verif.sidereal_time_arrays",
    "Verif.deltaT_arrays_refused",
    "Verif.deltaT_one_array",
    "Verif.diff_angle_arrays_refused",
    "Verif.equinox_arrays_refused",
    "Verif.equinox_one_array",
    "Verif.equinox_one_array_wrong"
   ],
   "note": "NumPy values as in C86 (Model/NumpyMoon.lean); the documentation of equinox says float, so the last three describe what happens outside it"
  },
  {
   "property": "C93",
   "status": "proved",
   "theorems": [
    "Verif.polynomial_float",
    "Verif.d_to_r_float",
    "Verif.r_to_d_float",
    "Verif.r_to_d_d_to_r_float",
    "Verif.diff_angle_float_range",
    "Verif.diff_angle_float_congr",
    "Verif.interpolate3_float",
    "Verif.interpolate_angle3_float",
    "Verif.interpolate_angle3_float_refuses"
   ],
   "note": "no overflow, as everywhere in the float model; the constants are the floats of constants.py"
  },
  {
   "property": "C94",
   "status": "proved",
   "theorems": [
    "Verif.check_perihelion_lines",
    "Verif.check_perihelion_params"
   ],
   "note": "the format of the printed numbers is not modelled"
  },
  {
   "property": "C95",
   "status": "proved",
   "theorems": [
    "Verif.cronus_season_lines",
    "Verif.cronus_seasons_complete",
    "Verif.cronus_season_lines_ordered",
    "Verif.seasonLine_time"
   ],
   "note": "as C67, for a conversion to local time that returns; the one of the code always raises (C55)"
  },
  {
   "property": "C96",
   "status": "proved",
   "theorems": [
    "Verif.deltaT_float_all",
    "Verif.dt_to_ut_float_all",
    "Verif.deltaT_checks"
   ],
   "note": "binary64 with an abstract rounding to nearest"
  },
  {
   "property": "C97",
   "status": "proved",
   "theorems": [
    "Verif.venus_1992",
    "Verif.venus_heliocentric_1992",
    "Verif.pollux",
    "Verif.sidereal_1987",
    "Verif.sidereal_2004"
   ],
   "note": "Meeus examples 12.a, 12.b, 13.a, 32.a, 33.a; exact arithmetic"
  },
  {
   "property": "C98",
   "status": "proved",
   "theorems": [
    "Verif.vsop_to_fk5_formula",
    "Verif.vsop_to_fk5_rotation",
    "Verif.vsop_to_fk5_rotation_planets",
    "Verif.fk_axis_length",
    "Verif.vsop_to_fk5_isometry"
   ],
   "note": "exact real arithmetic; the formula loses its meaning at the poles, where the tangent has none"
  },
  {
   "property": "C99",
   "status": "proved",
   "theorems": [
    "Verif.arrives_exists",
    "Verif.aberration_exact",
    "Verif.aberration_size",
    "Verif.geocentric_planet_physical"
   ],
   "note": "first order (Newtonian) aberration with the mean velocity of the Earth along its way; the 0.16 seconds of arc come from the coarse bound of the speeds and from the exit of the loop after two passes"
  },
  {
   "property": "C100",
   "status": "proved",
   "theorems": [
    "Verif.earth_motion_in_light_time",
    "Verif.sun_aberration_exact",
    "Verif.aberration_low_physical",
    "Verif.sun_place_physical"
   ],
   "note": "first order aberration, mean velocity of the Earth while the light is under way; the bounds are those of the neglected terms of the series"
  },
  {
   "property": "C101",
   "status": "proved",
   "theorems": [
    "Verif.low_longitude_accuracy",
    "Verif.published_low_near",
    "Verif.low_longitude_documented_accuracy_false",
    "Verif.apparent_correction_low",
    "Verif.apparent_low_accuracy",
    "Verif.low_longitude_accuracy_float",
    "Verif.low_longitude_documented_accuracy_false_float",
    "Verif.low_radius_accuracy",
    "Verif.low_radius_accuracy_float",
    "Verif.low_center_first_order",
    "Verif.ellipse_radius"
   ],
   "note": "the documented 0.01 degree is refuted by a witness; the bounds are sums of the amplitudes of the perturbations, so the true maximum is smaller"
  },
  {
   "property": "C102",
   "status": "proved",
   "theorems": [
    "Verif.sun_interpolated",
    "Verif.sun_transit",
    "Verif.sun_transit_found",
    "Verif.sun_riseset",
    "Verif.sun_riseset_found",
    "Verif.sun_transit_2000",
    "Verif.sun_rise_2000"
   ],
   "note": "exact real arithmetic; two thirds of the 2.1 seconds of arc come from the bound of the daily change of the nutation, which is not interpolated but bounded"
  },
  {
   "property": "C103",
   "status": "proved",
   "theorems": [
    "Verif.moon_interpolated_off"
   ],
   "note": "exact real arithmetic; the series are evaluated by the kernel at four times"
  },
  {
   "property": "C104",
   "status": "proved",
   "theorems": [
    "Verif.moon_interpolated",
    "Verif.moon_transit",
    "Verif.moon_transit_found",
    "Verif.moon_riseset",
    "Verif.moon_transit_2000",
    "Verif.moon_rise_2005"
   ],
   "note": "exact real arithmetic; the bounds are sums of the amplitudes of the terms and not attained, C103 has an error of 124 seconds of arc"
  },
  {
   "property": "C105",
   "status": "proved",
   "theorems": [
    "Verif.cronus_transit_lines",
    "Verif.pass_transit_lines",
    "Verif.cronus_sun_line",
    "Verif.cronus_moon_line",
    "Verif.cronus_sun_transit_queued",
    "Verif.cronus_sun_line_2000"
   ],
   "note": "the times are modelled over the reals, the text with floats; with the conversion to local time of the code no line is reached (C55), so it is a parameter"
  },
  {
   "property": "C106",
   "status": "proved",
   "theorems": [
    "Verif.create_text_python2",
    "Verif.create_text_checked",
    "Verif.create_text_no_term",
    "Verif.create_text_python3"
   ],
   "note": "the module string is a parameter: with strip (Python 2) and without (Python 3); ASCII digits and blanks only"
  },
  {
   "property": "C107",
   "status": "proved",
   "theorems": [
    "Verif.planet_right_ascension_slow",
    "Verif.cronus_line_crosses",
    "Verif.cronus_crossing_queued",
    "Verif.cronus_line_or_late",
    "Verif.cronus_transit_refused_iff",
    "Verif.bodies_cross_2000"
   ],
   "note": "motion from bounds on the first and second derivatives of the VSOP87D series, checked term by term by the kernel"
  },
  {
   "property": "C108",
   "status": "proved",
   "theorems": [
    "Verif.moon_rise_raises",
    "Verif.cronus_days_end",
    "Verif.cronus_never_ends"
   ],
   "note": "sidereal time and longitude of the Moon each cross a window by small steps; the two windows are met on one day"
  },
  {
   "property": "C109",
   "status": "proved",
   "theorems": [
    "Verif.planet_interpolated",
    "Verif.planet_transit",
    "Verif.planet_transit_found",
    "Verif.cronus_planet_line",
    "Verif.cronus_planet_transit_queued",
    "Verif.planet_line_2000"
   ],
   "note": "distance of the position of the planet from its chord by second derivatives (kernel-checked bounds), then of the argument from a uniform motion"
  }
 ]
}