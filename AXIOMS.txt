Output of #print axioms for the 564 theorems named in MANIFEST.json, by set of axioms.

[none] (3)
  Verif.epact_1583
  Verif.standard_zones_hours
  Verif.daylight_zones_hours

[propext] (4)
  Verif.easter_2024
  Verif.polynomial_empty
  Verif.polynomial_const
  Verif.equinox_tables_meet

[propext, Quot.sound] (8)
  Verif.epact_step
  Verif.lunarCorr_step
  Verif.easter_julian_period
  Verif.easter_gregorian_period
  Verif.interpolate3_error
  Verif.vsop_shared_table
  Verif.heappush_spec
  Verif.zone_names

[propext, Classical.choice, Quot.sound] (549)
  Verif.cal_to_jd_whole_day
  Verif.cal_to_jd_counts_days
  Verif.cal_to_jd_julian
  Verif.cal_to_jd_gregorian_positive
  Verif.reform
  Verif.j2000
  Verif.cal_to_jd_dyadic_day
  Verif.cal_to_jd_within_day
  Verif.cal_to_jd_error
  Verif.cal_to_jd_exact
  Verif.cal_to_jd_accepts_iff
  Verif.cal_to_jd_refuses_valueError
  Verif.cal_to_jd_message
  Verif.cal_to_jd_refuses_last_day_fraction
  Verif.cal_to_jd_refuses_fractional_year
  Verif.cal_to_jd_refuses_fractional_month
  Verif.cal_to_jd_accepts_negative_fractional_year
  Verif.cal_to_jd_strictMono
  Verif.cal_to_jd_mono
  Verif.cal_to_jd_next_day
  Verif.cal_to_jd_not_injective
  Verif.is_leap_year_iff
  Verif.jd_to_cal_date
  Verif.jd_to_cal_total
  Verif.jd_to_cal_exact
  Verif.jd_to_cal_binary64
  Verif.jd_to_cal_binary64_exact
  Verif.jd_to_cal_j2000
  Verif.jd_to_cal_cal_to_jd
  Verif.jd_to_cal_cal_to_jd_bad
  Verif.jd_to_cal_cal_to_jd_exceptional
  Verif.jd_to_cal_cal_to_jd_dyadic
  Verif.cal_to_jd_jd_to_cal
  Verif.cal_to_jd_jd_to_cal_modern
  Verif.cal_to_jd_array_accepts
  Verif.cal_to_jd_array_values
  Verif.cal_to_jd_array_shape
  Verif.is_leap_year_array
  Verif.jd_to_cal_array
  Verif.easter_array
  Verif.jd_to_day_of_week_array
  Verif.cal_to_day_of_year_array
  Verif.day_of_year_to_cal_array
  Verif.day_of_year_array_shape
  Verif.cal_to_day_of_year_eq
  Verif.cal_to_day_of_year_range
  Verif.cal_to_day_of_year_cal_to_jd
  Verif.day_of_year_to_cal_spec
  Verif.day_of_year_round_trip
  Verif.day_of_year_round_trip'
  Verif.day_of_year_to_cal_fraction
  Verif.jd_to_day_of_week_eq
  Verif.jd_to_day_of_week_exact
  Verif.jd_to_day_of_week_binary64
  Verif.jd_to_day_of_week_midnight
  Verif.jd_to_day_of_week_range
  Verif.jd_to_day_of_week_next
  Verif.jd_to_day_of_week_j2000
  Verif.easter_window
  Verif.easter_sunday
  Verif.easter_spec
  Verif.isEaster_unique
  Verif.solar_step
  Verif.easter_julian_period_minimal
  Verif.easter_gregorian_period_minimal
  Verif.frac_yr_to_jd_array
  Verif.frac_yr_to_jd_float
  Verif.frac_yr_to_jd_exact
  Verif.frac_yr_to_jd_mono
  Verif.frac_yr_to_jd_strictMono
  Verif.frac_yr_to_jd_ignores_calendar
  Verif.frac_yr_to_jd_negative_inconsistent
  Verif.yr_frac_mon_to_jd_array
  Verif.yr_frac_mon_to_jd_float
  Verif.yr_frac_mon_to_jd_exact
  Verif.yr_frac_mon_to_jd_refuses
  Verif.yr_frac_mon_to_jd_ignores_calendar
  Verif.yr_frac_mon_to_jd_all_years
  Verif.february_of_bad_century
  Verif.hms_round_trip_exact
  Verif.hms_round_trip_float
  Verif.hms_round_trip_fails
  Verif.hms_to_fday_scalar
  Verif.fday_to_hms_eq
  Verif.fday_to_hms_range
  Verif.fday_to_hms_exact
  Verif.cal_to_jde_scalar
  Verif.cal_to_jde_exact
  Verif.cal_to_jde_error
  Verif.cal_to_jde_array
  Verif.cal_to_jde_no_time_check
  Verif.lt_to_str_text
  Verif.lt_to_str_exact
  Verif.lt_to_str_float_minutes
  Verif.is_dst_never_returns
  Verif.is_dst_type_error
  Verif.ut_to_lt_never_returns
  Verif.sidereal_time_spec
  Verif.sidereal_time_j2000
  Verif.sidereal_time_daily
  Verif.modpi2_spec
  Verif.mod360_spec
  Verif.congr_unique
  Verif.modpi2_eq_iff
  Verif.modpi2_modpi2
  Verif.floatMod_spec
  Verif.mod360_upper_end
  Verif.diff_angle_congr
  Verif.diff_angle_range
  Verif.diff_angle_range_iff
  Verif.diff_angle_antisymm
  Verif.diff_angle_opposite
  Verif.d_to_dms_spec
  Verif.dms_to_d_exact
  Verif.dms_round_trip
  Verif.dms_to_d_refuses_arrays
  Verif.d_to_dms_float
  Verif.dms_round_trip_float
  Verif.degree_radian
  Verif.dToR_mod360
  Verif.interpolate3_refuses_iff
  Verif.interpolate3_quadratic
  Verif.quadratic_unique
  Verif.interpolate3_zero
  Verif.interpolate3_zero_float
  Verif.interpolate_angle3_refuses_iff
  Verif.interpolate_angle3_spec
  Verif.interpolate_angle3_large_second_difference
  Verif.polynomial_eq_sum
  Verif.load_params_assigns
  Verif.load_params_idempotent
  Verif.load_params_swap
  Verif.load_params_cases
  Verif.load_params_fault
  Verif.load_params_missing_text
  Verif.deltaT_interpolates
  Verif.deltaT_segment
  Verif.deltaT_at_entry
  Verif.deltaT_between
  Verif.deltaT_range
  Verif.deltaT_lipschitz
  Verif.deltaT_float
  Verif.deltaT_outside
  Verif.deltaT_outside_date
  Verif.deltaTFormula_eq
  Verif.deltaT_joins
  Verif.deltaT_jump_1621
  Verif.dt_to_ut_strictMono
  Verif.dt_to_ut_rate
  Verif.dt_to_ut_close
  Verif.dt_to_ut_float
  Verif.dt_to_ut_decreases_1621
  Verif.dt_to_ut_decreases_2030
  Verif.load_params_file
  Verif.load_params_ignores_missing_env
  Verif.lex_words
  Verif.lex_comment_joins
  Verif.lex_comment_example
  Verif.load_params_plus_sign
  Verif.lex_nonempty
  Verif.lex_quoted
  Verif.lex_unclosed_quote
  Verif.load_params_unclosed_quote
  Verif.ecl_to_equ_rotates
  Verif.ecl_to_equ_range
  Verif.ecl_to_equ_unique
  Verif.ecl_to_equ_cardinal
  Verif.equ_to_ecl_rotates
  Verif.equ_to_ecl_range
  Verif.ecl_to_equ_equ_to_ecl
  Verif.equ_to_ecl_ecl_to_equ
  Verif.ecliptic_round_trip
  Verif.equ_to_ecl_south
  Verif.equ_to_horiz_rotates
  Verif.equ_to_horiz_range
  Verif.equ_to_horiz_unique
  Verif.equ_to_horiz_culmination
  Verif.equ_to_horiz_west
  Verif.ell_to_geo_spec
  Verif.ellipse_foot_unique
  Verif.ell_to_geo_radius
  Verif.ell_to_geo_wrong_unit
  Verif.ell_to_geo_pole_equator
  Verif.vsopDict_lookup_iff
  Verif.vsop_dimension_value
  Verif.vsop_dimension_unknown
  Verif.vsop_dimension_array
  Verif.vsop_dimension_repeated
  Verif.vsop_dimension_array_wrong
  Verif.planets_physical_2
  Verif.planets_physical_6
  Verif.orbits_ordered
  Verif.planets_distance_order
  Verif.sun_dimension3_value
  Verif.sun_opposite_earth
  Verif.sun_dimension_unknown
  Verif.vsop_instances_agree
  Verif.vsop_before_construction
  Verif.planets_advance
  Verif.nutation_in_longitude_value
  Verif.nutation_in_obliquity_value
  Verif.nutation_growth
  Verif.nutation_small
  Verif.nutation_main_term
  Verif.nutation_j2000
  Verif.obliquity_agree
  Verif.obliquity_range
  Verif.obliquity_J2000
  Verif.lunar_dimension3_value
  Verif.lunar_dimension_unknown
  Verif.lunar_dimension_error
  Verif.lunar_longitude_value
  Verif.lunar_radius_value
  Verif.lunar_latitude_value
  Verif.lunar_bounds
  Verif.lunar_longitude_range
  Verif.lunar_longitude_negative
  Verif.longitude_radius_low_value
  Verif.longitude_radius_low_radius
  Verif.apparent_longitude_low_value
  Verif.aberration_low_value
  Verif.equation_of_center_sign
  Verif.lunar_mean_values
  Verif.lunar_mean_range
  Verif.lunar_perigee_consistent
  Verif.sun_longitude_consistent
  Verif.sun_perigee_consistent
  Verif.node_published
  Verif.lunar_node_value
  Verif.lunar_node_consistent
  Verif.lunar_node_inconsistent
  Verif.equinox_approx_out_of_range
  Verif.equinox_approx_unknown_season
  Verif.equinox_approx_fractional
  Verif.equinox_approx_order
  Verif.equinox_approx_year
  Verif.apparent_sun_value
  Verif.events_apart
  Verif.event_exists
  Verif.equinox_converges
  Verif.equinox_unknown_season
  Verif.equinox_delta_nonpos
  Verif.equinox_nearest
  Verif.equinox_approx_date
  Verif.equinox_of_approx
  Verif.equinox_seasons_ordered
  Verif.geocentric_planet_accurate
  Verif.geocentric_three_passes
  Verif.geocentric_delta_nonpos
  Verif.geocentric_coarse
  Verif.geocentric_unknown
  Verif.geocentric_earth
  Verif.vsop_to_fk5_small
  Verif.vsop_to_fk5_planets
  Verif.vsop_to_fk5_j2000
  Verif.transit_sound
  Verif.transit_found
  Verif.transit_none
  Verif.transit_refused_iff
  Verif.transit_delta_nonpos
  Verif.transit_dropped
  Verif.transit_refuses
  Verif.rise_returns_none
  Verif.settime_returns_none
  Verif.rise_discards
  Verif.riseset_sound
  Verif.riseset_never_rises
  Verif.riseset_circumpolar
  Verif.riseset_passes
  Verif.riseset_refused_iff
  Verif.riseset_found
  Verif.riseset_delta_nonpos
  Verif.riseset_star
  Verif.riseset_refuses
  Verif.moon_altitude_antitone
  Verif.moon_altitude_range
  Verif.cronus_ordered
  Verif.cronus_seasons_ordered
  Verif.cronus_transits_late
  Verif.cronus_out_of_order
  Verif.cronus_no_stop
  Verif.cronus_stop_is_jd
  Verif.cronus_displays_nothing
  Verif.cronus_raises
  Verif.cronus_always_raises
  Verif.heappop_spec
  Verif.heap_sorts
  Verif.heap_unstable
  Verif.cronus_easter
  Verif.easterLine_text
  Verif.cronus_tables
  Verif.cronus_no_risings
  Verif.easter_cgi_checks
  Verif.easter_cgi_rows
  Verif.easter_cgi_constant
  Verif.easter_cgi_no_date
  Verif.easter_cgi_bad_year
  Verif.easter_cgi_default
  Verif.easter_form_submitted
  Verif.int_text_no_quote
  Verif.form_years_given
  Verif.form_years_default
  Verif.form_years_start
  Verif.pyRange_sorted
  Verif.mem_pyRange
  Verif.pyInt_toString
  Verif.form_zones_given
  Verif.zone_direction
  Verif.solstice_cgi_no_zone
  Verif.solstice_cgi_raises
  Verif.solstice_cgi_default
  Verif.solstice_form_submitted
  Verif.solstice_form_zones
  Verif.solstice_cgi_repaired
  Verif.solstice_repaired
  Verif.solstice_raises
  Verif.solstice_stop
  Verif.seasonTime_repaired
  Verif.sun_rise_raises
  Verif.sun_place_apparent
  Verif.cronus_place_sun
  Verif.cronus_place_planet
  Verif.cronus_place_moon
  Verif.moon_place_nutation_twice
  Verif.moon_place_off
  Verif.moon_place_off_j2000
  Verif.moon_place_altitude
  Verif.moon_advances
  Verif.moon_reaches
  Verif.moon_returns_apart
  Verif.moon_phase_exists
  Verif.moon_phase_apart
  Verif.moon_phases_ordered
  Verif.moon_rates
  Verif.moon_nodes
  Verif.moon_apsides
  Verif.mercury_elongation
  Verif.venus_elongation
  Verif.cronus_inner_planets
  Verif.planet_period
  Verif.planet_synodic
  Verif.planets_speed_order
  Verif.vsop_float_2
  Verif.vsop_float_6
  Verif.vsop_float_any
  Verif.vsop_float_refuses
  Verif.nutation_float
  Verif.apparent_sun_float
  Verif.equinox_float
  Verif.equinox_float_2
  Verif.equinox_float_6
  Verif.equinox_float_any
  Verif.equinox_float_nearest
  Verif.equinox_float_unknown
  Verif.equinox_float_nonpos
  Verif.equinox_approx_float
  Verif.equinox_approx_float_refuses
  Verif.equinox_approx_float_fractional
  Verif.equinox_year_float
  Verif.equinox_seasons_float
  Verif.lunar_float
  Verif.lunar_float_bounds
  Verif.lunar_float_dimension
  Verif.lunar_mean_float
  Verif.lunar_float_advances
  Verif.ecl_to_equ_float
  Verif.ecl_to_equ_float_zodiac
  Verif.equ_to_ecl_float
  Verif.equ_to_horiz_float
  Verif.equ_to_horiz_zenith_nan
  Verif.geocentric_planet_float
  Verif.geocentric_passes_float
  Verif.geocentric_unknown_float
  Verif.geocentric_delta_nonpos_float
  Verif.jd_to_jcent_exact
  Verif.jd_to_jcent_mono
  Verif.jd_to_jcent_float
  Verif.jd_to_jcent_whole
  Verif.jd_to_jcent_nearest
  Verif.jcentF_eq
  Verif.easter_float
  Verif.easter_float_isEaster
  Verif.easter_fraction
  Verif.sidereal_float
  Verif.siderealF_2000
  Verif.transit_float_sound
  Verif.transit_float_found
  Verif.transit_float_outcome
  Verif.deltaTDaysF_near
  Verif.transit_float_sound_table
  Verif.transit_float_found_table
  Verif.transit_float_refuses
  Verif.transit_float_dropped
  Verif.transit_float_sound_all
  Verif.transit_float_found_all
  Verif.riseset_float_found
  Verif.riseset_float_sound
  Verif.riseset_float_never_rises
  Verif.riseset_float_circumpolar
  Verif.riseset_float_found_table
  Verif.riseset_float_sound_table
  Verif.riseset_float_star
  Verif.riseset_float_found_all
  Verif.riseset_float_sound_all
  Verif.ecl_to_equ_arrays
  Verif.equ_to_ecl_arrays
  Verif.equ_to_horiz_arrays
  Verif.ell_to_geo_arrays
  Verif.sun_mean_longitude_arrays
  Verif.sun_mean_longitude_perigee_arrays
  Verif.longitude_radius_low_arrays
  Verif.apparent_longitude_low_arrays
  Verif.vsop_to_fk5_arrays
  Verif.geocentric_planet_arrays_refused
  Verif.geocentric_planet_arrays_unknown
  Verif.geocentric_planet_one
  Verif.obliquity_float
  Verif.obliquity_float_agree
  Verif.sun_mean_longitude_float
  Verif.sun_mean_longitude_perigee_float
  Verif.longitude_radius_low_float
  Verif.apparent_longitude_low_float
  Verif.apparent_low_float
  Verif.ell_to_geo_float
  Verif.moon_rst_altitude_float
  Verif.moon_rst_altitude_float_range
  Verif.vsop_check_values
  Verif.vsop_check_values_float
  Verif.vsop_check_covers
  Verif.equinox_approx_accuracy
  Verif.equinox_approx_against_equinox
  Verif.equinox_approx_accuracy_float
  Verif.published_event
  Verif.equinox_meets_published
  Verif.equinox_meets_published_float
  Verif.equinox_published_one_second
  Verif.moon_1992
  Verif.moon_2013
  Verif.nutation_1987
  Verif.nutation_2013
  Verif.mean_elements_schureman
  Verif.sun_low_1992
  Verif.sun_1992
  Verif.moon_1992_float
  Verif.moon_2013_float
  Verif.nutation_published_float
  Verif.nutation_in_longitude_arrays
  Verif.nutation_in_obliquity_arrays
  Verif.obliquity_arrays
  Verif.obliquity_hi_arrays
  Verif.lunar_longitude_arrays
  Verif.lunar_latitude_arrays
  Verif.lunar_radius_arrays
  Verif.lunar_dimension3_arrays
  Verif.lunar_dimension_arrays
  Verif.lunar_mean_arrays
  Verif.sidereal_time_arrays
  Verif.deltaT_arrays_refused
  Verif.deltaT_one_array
  Verif.diff_angle_arrays_refused
  Verif.equinox_arrays_refused
  Verif.equinox_one_array
  Verif.equinox_one_array_wrong
  Verif.polynomial_float
  Verif.d_to_r_float
  Verif.r_to_d_float
  Verif.r_to_d_d_to_r_float
  Verif.diff_angle_float_range
  Verif.diff_angle_float_congr
  Verif.interpolate3_float
  Verif.interpolate_angle3_float
  Verif.interpolate_angle3_float_refuses
  Verif.check_perihelion_lines
  Verif.check_perihelion_params
  Verif.cronus_season_lines
  Verif.cronus_seasons_complete
  Verif.cronus_season_lines_ordered
  Verif.seasonLine_time
  Verif.deltaT_float_all
  Verif.dt_to_ut_float_all
  Verif.deltaT_checks
  Verif.venus_1992
  Verif.venus_heliocentric_1992
  Verif.pollux
  Verif.sidereal_1987
  Verif.sidereal_2004
  Verif.vsop_to_fk5_formula
  Verif.vsop_to_fk5_rotation
  Verif.vsop_to_fk5_rotation_planets
  Verif.fk_axis_length
  Verif.vsop_to_fk5_isometry
  Verif.arrives_exists
  Verif.aberration_exact
  Verif.aberration_size
  Verif.geocentric_planet_physical
  Verif.earth_motion_in_light_time
  Verif.sun_aberration_exact
  Verif.aberration_low_physical
  Verif.sun_place_physical
  Verif.low_longitude_accuracy
  Verif.published_low_near
  Verif.low_longitude_documented_accuracy_false
  Verif.apparent_correction_low
  Verif.apparent_low_accuracy
  Verif.low_longitude_accuracy_float
  Verif.low_longitude_documented_accuracy_false_float
  Verif.low_radius_accuracy
  Verif.low_radius_accuracy_float
  Verif.low_center_first_order
  Verif.ellipse_radius
  Verif.sun_interpolated
  Verif.sun_transit
  Verif.sun_transit_found
  Verif.sun_riseset
  Verif.sun_riseset_found
  Verif.sun_transit_2000
  Verif.sun_rise_2000
  Verif.moon_interpolated_off
  Verif.moon_interpolated
  Verif.moon_transit
  Verif.moon_transit_found
  Verif.moon_riseset
  Verif.moon_transit_2000
  Verif.moon_rise_2005
  Verif.cronus_transit_lines
  Verif.pass_transit_lines
  Verif.cronus_sun_line
  Verif.cronus_moon_line
  Verif.cronus_sun_transit_queued
  Verif.cronus_sun_line_2000
  Verif.create_text_python2
  Verif.create_text_checked
  Verif.create_text_no_term
  Verif.create_text_python3
  Verif.planet_right_ascension_slow
  Verif.cronus_line_crosses
  Verif.cronus_crossing_queued
  Verif.cronus_line_or_late
  Verif.cronus_transit_refused_iff
  Verif.bodies_cross_2000
  Verif.moon_rise_raises
  Verif.cronus_days_end
  Verif.cronus_never_ends
  Verif.planet_interpolated
  Verif.planet_transit
  Verif.planet_transit_found
  Verif.cronus_planet_line
  Verif.cronus_planet_transit_queued
  Verif.planet_line_2000
