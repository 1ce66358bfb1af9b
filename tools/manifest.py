# Source of /verif/MANIFEST.json: python3 /verif/tools/manifest.py
import json
C=[]
def c(p,status,thms,note=""):
    C.append(dict(property=p,status=status,theorems=["Verif."+t for t in thms.split()],note=note))
c("C01","proved","cal_to_jd_whole_day cal_to_jd_counts_days cal_to_jd_julian cal_to_jd_gregorian_positive reform j2000 cal_to_jd_dyadic_day cal_to_jd_within_day cal_to_jd_error cal_to_jd_exact","every FloatLike arithmetic; exceptional Gregorian dates characterised")
c("C02","proved","cal_to_jd_accepts_iff cal_to_jd_refuses_valueError cal_to_jd_message cal_to_jd_refuses_last_day_fraction cal_to_jd_refuses_fractional_year cal_to_jd_refuses_fractional_month cal_to_jd_accepts_negative_fractional_year")
c("C05","proved","cal_to_jd_strictMono cal_to_jd_mono cal_to_jd_next_day cal_to_jd_not_injective")
c("C07","proved","is_leap_year_iff")
c("C03","proved","jd_to_cal_date jd_to_cal_total jd_to_cal_exact jd_to_cal_binary64 jd_to_cal_binary64_exact jd_to_cal_j2000","the exceptional days BadDay are part of the statement; upper limit 2^39 days")
c("C04","proved","jd_to_cal_cal_to_jd jd_to_cal_cal_to_jd_bad jd_to_cal_cal_to_jd_exceptional jd_to_cal_cal_to_jd_dyadic cal_to_jd_jd_to_cal cal_to_jd_jd_to_cal_modern","all three behaviours on the exceptional dates are theorems")
c("C06","proved","cal_to_jd_array_accepts cal_to_jd_array_values cal_to_jd_array_shape is_leap_year_array jd_to_cal_array easter_array jd_to_day_of_week_array cal_to_day_of_year_array day_of_year_to_cal_array day_of_year_array_shape")
c("C08","proved","cal_to_day_of_year_eq cal_to_day_of_year_range cal_to_day_of_year_cal_to_jd")
c("C09","proved","day_of_year_to_cal_spec day_of_year_round_trip day_of_year_round_trip' day_of_year_to_cal_fraction")
c("C10","proved","jd_to_day_of_week_eq jd_to_day_of_week_exact jd_to_day_of_week_binary64 jd_to_day_of_week_midnight jd_to_day_of_week_range jd_to_day_of_week_next jd_to_day_of_week_j2000","constancy during the day: without exception in exact arithmetic and within a binade, otherwise up to one rounding error before midnight")
c("C11","proved","easter_window easter_sunday easter_2024","the library's own weekday is Monday in negative Gregorian century years (C01)")
c("C12","proved","easter_spec isEaster_unique epact_step solar_step lunarCorr_step epact_1583")
c("C13","proved","easter_spec isEaster_unique easter_julian_period easter_julian_period_minimal")
c("C14","proved","easter_gregorian_period easter_gregorian_period_minimal")
c("C15","proved","frac_yr_to_jd_array frac_yr_to_jd_float frac_yr_to_jd_exact frac_yr_to_jd_mono frac_yr_to_jd_strictMono frac_yr_to_jd_ignores_calendar frac_yr_to_jd_negative_inconsistent","the ignored calendar flag and the inconsistency for negative years are theorems")
c("C16","proved","yr_frac_mon_to_jd_array yr_frac_mon_to_jd_float yr_frac_mon_to_jd_exact yr_frac_mon_to_jd_refuses yr_frac_mon_to_jd_ignores_calendar yr_frac_mon_to_jd_all_years february_of_bad_century","arrays for years from 0; single values from -4712 with the exceptional months")
c("C17","proved","hms_round_trip_exact hms_round_trip_float hms_round_trip_fails hms_to_fday_scalar","exact in exact arithmetic; in binary64 up to one second, with the failing case as a theorem")
c("C18","proved","fday_to_hms_eq fday_to_hms_range fday_to_hms_exact")
c("C19","proved","cal_to_jde_scalar cal_to_jde_exact cal_to_jde_error cal_to_jde_array cal_to_jde_no_time_check")
c("C20","proved","lt_to_str_text lt_to_str_exact lt_to_str_float_minutes","negative part (minutes printed as a float) is a theorem")
c("C21","proved","is_dst_never_returns is_dst_type_error ut_to_lt_never_returns","the documented behaviour is refuted for every input")
c("C22","proved","sidereal_time_spec sidereal_time_j2000 sidereal_time_daily","real arithmetic")
c("C23","proved","modpi2_spec mod360_spec congr_unique modpi2_eq_iff modpi2_modpi2 floatMod_spec mod360_upper_end")
c("C24","proved","diff_angle_congr diff_angle_range diff_angle_range_iff diff_angle_antisymm diff_angle_opposite")
c("C25","proved","d_to_dms_spec dms_to_d_exact dms_round_trip dms_to_d_refuses_arrays d_to_dms_float dms_round_trip_float")
c("C26","proved","degree_radian dToR_mod360")
c("C27","proved","interpolate3_refuses_iff interpolate3_error interpolate3_quadratic quadratic_unique interpolate3_zero interpolate3_zero_float")
c("C28","proved","interpolate_angle3_refuses_iff interpolate_angle3_spec interpolate_angle3_large_second_difference")
c("C29","proved","polynomial_eq_sum polynomial_empty polynomial_const")
c("C30","proved","load_params_assigns load_params_idempotent load_params_swap load_params_cases")
c("C31","proved","load_params_fault load_params_missing_text load_params_cases")
c("C32","proved","deltaT_interpolates deltaT_segment deltaT_at_entry deltaT_between deltaT_range deltaT_lipschitz deltaT_float","exact arithmetic, with a binary64 error bound of 1e-11 s")
c("C33","proved","deltaT_outside deltaT_outside_date deltaTFormula_eq deltaT_joins deltaT_jump_1621","the jumps of the formula are theorems")
c("C34","proved","dt_to_ut_strictMono dt_to_ut_rate dt_to_ut_close dt_to_ut_float dt_to_ut_decreases_1621 dt_to_ut_decreases_2030","exact arithmetic, with a binary64 error bound of 6e-10 d")
c("C59","proved","load_params_file load_params_ignores_missing_env")
c("C60","proved","lex_words lex_comment_joins lex_comment_example load_params_plus_sign lex_nonempty lex_quoted lex_unclosed_quote load_params_unclosed_quote")
c("C35","proved","ecl_to_equ_rotates ecl_to_equ_range ecl_to_equ_unique ecl_to_equ_cardinal","exact real arithmetic; the output direction is the input direction turned about the x axis by the obliquity, with right ascension in [0,2pi) and declination in [-pi/2,pi/2], which determine it uniquely")
c("C36","proved","equ_to_ecl_rotates equ_to_ecl_range ecl_to_equ_equ_to_ecl equ_to_ecl_ecl_to_equ ecliptic_round_trip equ_to_ecl_south","exact real arithmetic; equ_to_ecl_south: southern latitudes come back increased by a full turn (defect)")
c("C37","proved","equ_to_horiz_rotates equ_to_horiz_range equ_to_horiz_unique equ_to_horiz_culmination equ_to_horiz_west","exact real arithmetic")
c("C38","proved","ell_to_geo_spec ellipse_foot_unique ell_to_geo_radius ell_to_geo_wrong_unit ell_to_geo_pole_equator","exact real arithmetic; ell_to_geo_wrong_unit negates the documented unit")
c("C39","proved","vsopDict_lookup_iff vsop_dimension_value vsop_dimension_unknown","exact real arithmetic, all eight planets' generated tables")
c("C40","proved","vsop_dimension_array vsop_dimension_repeated vsop_dimension_array_wrong","negated: an array of times gives sums over the time axis; proved what the array result is and that it differs from the scalar results")
c("C41","proved","planets_physical_2 planets_physical_6 orbits_ordered planets_distance_order","for all real times within 2000 (6000) years of J2000")
c("C42","proved","sun_dimension3_value sun_opposite_earth sun_dimension_unknown","")
c("C56","proved","vsop_shared_table vsop_instances_agree vsop_before_construction","")
c("C61","proved","planets_advance","for all pairs of real times within the stated era")
c("C43","proved","nutation_in_longitude_value nutation_in_obliquity_value nutation_growth nutation_small nutation_main_term nutation_j2000","exact real arithmetic; holds within thirty centuries")
c("C44","proved","obliquity_agree obliquity_range obliquity_J2000","exact real arithmetic")
c("C45","proved","lunar_dimension3_value lunar_dimension_unknown lunar_dimension_error lunar_longitude_value lunar_radius_value lunar_latitude_value lunar_bounds lunar_longitude_range lunar_longitude_negative","exact real arithmetic; lunar_longitude_negative: the longitude is not reduced to one turn")
c("C46","proved","longitude_radius_low_value longitude_radius_low_radius apparent_longitude_low_value aberration_low_value equation_of_center_sign","exact real arithmetic; equation_of_center_sign: a double sign in the code changes the published formula")
c("C62","proved","lunar_mean_values lunar_mean_range lunar_perigee_consistent sun_longitude_consistent sun_perigee_consistent node_published lunar_node_value lunar_node_consistent lunar_node_inconsistent","exact real arithmetic; lunar_node_inconsistent: sign error in the last coefficient of the node")
c("C47","proved","equinox_approx_out_of_range equinox_approx_unknown_season equinox_approx_fractional equinox_approx_order equinox_approx_year equinox_tables_meet","exact real arithmetic; equinox_tables_meet: the two tables disagree by 42 s for the summer of year 1000 because of a sign in the code")
c("C48","proved","apparent_sun_value events_apart event_exists equinox_converges equinox_unknown_season equinox_delta_nonpos equinox_nearest","exact real arithmetic, |millennia from J2000| <= 5.9")
c("C63","proved","equinox_approx_date","exact real arithmetic")
c("C64","proved","equinox_of_approx equinox_seasons_ordered","exact real arithmetic")
c("C49","proved","geocentric_planet_accurate geocentric_three_passes geocentric_delta_nonpos geocentric_coarse geocentric_unknown geocentric_earth","exact real arithmetic; single times")
c("C50","proved","vsop_to_fk5_small vsop_to_fk5_planets vsop_to_fk5_j2000","exact real arithmetic")
c("C52","proved","transit_sound transit_found transit_none transit_refused_iff transit_delta_nonpos transit_dropped transit_refuses","times returned are transits, midday transits are found, exact outcomes; witnesses for the dropped event at the end of the day and for the refused estimate in the east")
c("C51","proved","rise_returns_none settime_returns_none rise_discards","negated expectation: the value is always None; rise_discards exhibits an event that is computed and thrown away")
c("C53","proved","riseset_sound riseset_never_rises riseset_circumpolar riseset_passes riseset_refused_iff riseset_found riseset_delta_nonpos riseset_star riseset_refuses","exact real arithmetic; riseset_refuses: a rising at Greenwich refused with an exception (defect)")
c("C65","proved","moon_altitude_antitone moon_altitude_range","exact real arithmetic")
c("C54","proved","cronus_ordered cronus_seasons_ordered cronus_transits_late cronus_out_of_order","start years from -1000, times below 2^40; cronus_out_of_order is a witness from a loop state satisfying the invariants, with a repaired conversion to local time (with the code's one no event is displayed at all, C55)")
c("C55","proved","cronus_no_stop cronus_stop_is_jd cronus_displays_nothing cronus_raises cronus_always_raises","defects: the stop year is compared with Julian Days, and the conversion to local time always raises")
c("C66","proved","heappush_spec heappop_spec heap_sorts heap_unstable","model of CPython's heapq")
c("C67","proved","cronus_easter easterLine_text","for every conversion to local time (with the code's one the run raises before the first line)")
c("C68","proved","cronus_tables cronus_no_risings","start years from -1000")
c("C57","proved","easter_cgi_checks easter_cgi_rows easter_cgi_constant easter_cgi_no_date easter_cgi_bad_year easter_cgi_default easter_form_submitted int_text_no_quote form_years_given form_years_default form_years_start pyRange_sorted mem_pyRange pyInt_toString","the claim that the page shows the dates is refuted (easter_cgi_no_date, easter_cgi_constant); the validation is as documented")
c("C58","proved","standard_zones_hours daylight_zones_hours zone_names form_zones_given zone_direction solstice_cgi_no_zone solstice_cgi_raises solstice_cgi_default solstice_form_submitted solstice_form_zones solstice_cgi_repaired","no submission gives a cell with the conversion to local time of the code; with a working one the table is complete")
c("C69","proved","solstice_repaired solstice_raises solstice_stop seasonTime_repaired","solstice_raises refutes the documented behaviour for the code, solstice_repaired proves it for any conversion to local time which does not raise")
c("C70","proved","sun_rise_raises","the documented behaviour is refuted")
c("C71","proved","sun_place_apparent cronus_place_sun cronus_place_planet cronus_place_moon moon_place_nutation_twice moon_place_off moon_place_off_j2000 moon_place_altitude","the claim about the Moon is refuted with a lower bound of the error at J2000")
c("C72","proved","moon_advances moon_reaches moon_returns_apart moon_phase_exists moon_phase_apart moon_phases_ordered moon_rates moon_nodes moon_apsides","rates from the sums of the tables, existence by the intermediate value theorem")
c("C73","proved","mercury_elongation venus_elongation cronus_inner_planets","the distance bounds of the tables, the light time and the aberration are all accounted for")
c("C74","proved","planet_period planet_synodic planets_speed_order","tables of periods are the specification; all 28 pairs")
c("C75","proved","vsop_float_2 vsop_float_6 vsop_float_any vsop_float_refuses","cosine and summation of NumPy enter as hypotheses CosLike and SumLike, both shown satisfiable")
c("C76","proved","nutation_float apparent_sun_float equinox_float equinox_float_2 equinox_float_6 equinox_float_any equinox_float_nearest equinox_float_unknown equinox_float_nonpos","the functions of NumPy enter as the hypothesis NumLib.Good, shown satisfiable")
c("C77","proved","equinox_approx_float equinox_approx_float_refuses equinox_approx_float_fractional equinox_year_float equinox_seasons_float","cosine and the builtin sum enter as hypotheses CosLike and PySumLike, both shown satisfiable")
c("C78","proved","lunar_float lunar_float_bounds lunar_float_dimension lunar_mean_float lunar_float_advances","the functions of NumPy enter as the hypothesis NumLib.Good, shown satisfiable")
c("C79","proved","ecl_to_equ_float ecl_to_equ_float_zodiac equ_to_ecl_float equ_to_horiz_float equ_to_horiz_zenith_nan","the functions of NumPy enter as the hypothesis TrigLib.Good, shown satisfiable (trigLib_exists, zenith_lib_exists)")
c("C80","proved","geocentric_planet_float geocentric_passes_float geocentric_unknown_float geocentric_delta_nonpos_float","the functions of NumPy enter as the hypothesis GeoLib.Good, shown satisfiable (geoLib_exists)")
c("C81","proved","jd_to_jcent_exact jd_to_jcent_mono jd_to_jcent_float jd_to_jcent_whole jd_to_jcent_nearest jcentF_eq","")
c("C82","proved","easter_float easter_float_isEaster easter_fraction","NumPy's float remainder and floor division; easter_fraction refutes the claim for fractions of a year")
c("C83","proved","sidereal_float siderealF_2000","")
c("C84","proved","transit_float_sound transit_float_found transit_float_outcome deltaTDaysF_near transit_float_sound_table transit_float_found_table transit_float_refuses transit_float_dropped transit_float_sound_all transit_float_found_all","transit_float_refuses and transit_float_dropped show that the defects of C52 remain with floats")
c("C85","proved","riseset_float_found riseset_float_sound riseset_float_never_rises riseset_float_circumpolar riseset_float_found_table riseset_float_sound_table riseset_float_star riseset_float_found_all riseset_float_sound_all","the contraction of C53 with rounding noise; h0 within 0.1 for found, 0.5 for the other theorems; the margin of the None theorems is 1e-13")
c("C86","proved","ecl_to_equ_arrays equ_to_ecl_arrays equ_to_horiz_arrays ell_to_geo_arrays sun_mean_longitude_arrays sun_mean_longitude_perigee_arrays longitude_radius_low_arrays apparent_longitude_low_arrays vsop_to_fk5_arrays geocentric_planet_arrays_refused geocentric_planet_arrays_unknown geocentric_planet_one","refuted for geocentric_planet: geocentric_planet_arrays_refused holds for every array of two or more times; geocentric_planet_one shows that the array model and the scalar model agree for one time")
c("C87","proved","obliquity_float obliquity_float_agree sun_mean_longitude_float sun_mean_longitude_perigee_float longitude_radius_low_float apparent_longitude_low_float apparent_low_float ell_to_geo_float moon_rst_altitude_float moon_rst_altitude_float_range","against the formulas of C44, C46, C62 and C65; ell_to_geo against the real function of C38")
c("C88","proved","vsop_check_values vsop_check_values_float vsop_check_covers","the kernel evaluates the 31577 rows at the ten dates with a cosine in natural numbers, whose error is proved (cosN_near)")
c("C89","proved","equinox_approx_accuracy equinox_approx_against_equinox equinox_approx_accuracy_float","the kernel evaluates the longitude of the Sun for all 16004 results: 1024 years at once in packed natural numbers (blockN, error proved in block_lambda), and the 97 results of largest error one by one (ptOK, proved in point_event); the largest error, summer -408, is 2.1556 minutes")
c("C90","proved","published_event equinox_meets_published equinox_meets_published_float equinox_published_one_second","the published table is Spec/Seasons.lean; the kernel evaluates the longitude of the Sun at the 41 published times (pubOK, proved in pub_event)")
c("C91","proved","moon_1992 moon_2013 nutation_1987 nutation_2013 mean_elements_schureman sun_low_1992 sun_1992 moon_1992_float moon_2013_float nutation_published_float","published values in the statements and in Spec/Examples.lean; the kernel evaluates the series at the four times (Lemmas/MoonPublished.lean, Lemmas/SunPublished.lean)")
c("C92","proved","nutation_in_longitude_arrays nutation_in_obliquity_arrays obliquity_arrays obliquity_hi_arrays lunar_longitude_arrays lunar_latitude_arrays lunar_radius_arrays lunar_dimension3_arrays lunar_dimension_arrays lunar_mean_arrays sidereal_time_arrays deltaT_arrays_refused deltaT_one_array diff_angle_arrays_refused equinox_arrays_refused equinox_one_array equinox_one_array_wrong","NumPy values as in C86 (Model/NumpyMoon.lean); the documentation of equinox says float, so the last three describe what happens outside it")
c("C93","proved","polynomial_float d_to_r_float r_to_d_float r_to_d_d_to_r_float diff_angle_float_range diff_angle_float_congr interpolate3_float interpolate_angle3_float interpolate_angle3_float_refuses","no overflow, as everywhere in the float model; the constants are the floats of constants.py")
c("C94","proved","check_perihelion_lines check_perihelion_params","the format of the printed numbers is not modelled")
c("C95","proved","cronus_season_lines cronus_seasons_complete cronus_season_lines_ordered seasonLine_time","as C67, for a conversion to local time that returns; the one of the code always raises (C55)")
c("C96","proved","deltaT_float_all dt_to_ut_float_all deltaT_checks","binary64 with an abstract rounding to nearest")
c("C97","proved","venus_1992 venus_heliocentric_1992 pollux sidereal_1987 sidereal_2004","Meeus examples 12.a, 12.b, 13.a, 32.a, 33.a; exact arithmetic")
c("C98","proved","vsop_to_fk5_formula vsop_to_fk5_rotation vsop_to_fk5_rotation_planets fk_axis_length vsop_to_fk5_isometry","exact real arithmetic; the formula loses its meaning at the poles, where the tangent has none")
c("C99","proved","arrives_exists aberration_exact aberration_size geocentric_planet_physical","first order (Newtonian) aberration with the mean velocity of the Earth along its way; the 0.16 seconds of arc come from the coarse bound of the speeds and from the exit of the loop after two passes")
c("C100","proved","earth_motion_in_light_time sun_aberration_exact aberration_low_physical sun_place_physical","first order aberration, mean velocity of the Earth while the light is under way; the bounds are those of the neglected terms of the series")
c("C101","proved","low_longitude_accuracy published_low_near low_longitude_documented_accuracy_false apparent_correction_low apparent_low_accuracy low_longitude_accuracy_float low_longitude_documented_accuracy_false_float low_radius_accuracy low_radius_accuracy_float low_center_first_order ellipse_radius","the documented 0.01 degree is refuted by a witness; the bounds are sums of the amplitudes of the perturbations, so the true maximum is smaller")
c("C102","proved","sun_interpolated sun_transit sun_transit_found sun_riseset sun_riseset_found sun_transit_2000 sun_rise_2000","exact real arithmetic; two thirds of the 2.1 seconds of arc come from the bound of the daily change of the nutation, which is not interpolated but bounded")
c("C103","proved","moon_interpolated_off","exact real arithmetic; the series are evaluated by the kernel at four times")
c("C104","proved","moon_interpolated moon_transit moon_transit_found moon_riseset moon_transit_2000 moon_rise_2005","exact real arithmetic; the bounds are sums of the amplitudes of the terms and not attained, C103 has an error of 124 seconds of arc")
c("C105","proved","cronus_transit_lines pass_transit_lines cronus_sun_line cronus_moon_line cronus_sun_transit_queued cronus_sun_line_2000","the times are modelled over the reals, the text with floats; with the conversion to local time of the code no line is reached (C55), so it is a parameter")
c("C106","proved","create_text_python2 create_text_checked create_text_no_term create_text_python3","the module string is a parameter: with strip (Python 2) and without (Python 3); ASCII digits and blanks only")
c("C107","proved","planet_right_ascension_slow cronus_line_crosses cronus_crossing_queued cronus_line_or_late cronus_transit_refused_iff bodies_cross_2000","motion from bounds on the first and second derivatives of the VSOP87D series, checked term by term by the kernel")
c("C108","proved","moon_rise_raises cronus_days_end cronus_never_ends","sidereal time and longitude of the Moon each cross a window by small steps; the two windows are met on one day")
c("C109","proved","planet_interpolated planet_transit planet_transit_found cronus_planet_line cronus_planet_transit_queued planet_line_2000","distance of the position of the planet from its chord by second derivatives (kernel-checked bounds), then of the argument from a uniform motion")
#--END
json.dump({"claims":C},open("/verif/MANIFEST.json","w"),indent=1)
