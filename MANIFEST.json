{
 "claims": [
  {
   "property": "C01",
   "status": "proved",
   "theorems": [
    "Skyfield.C01_date_is_valid",
    "Skyfield.C01_jd_roundtrip",
    "Skyfield.C01_date_roundtrip"
   ],
   "note": ""
  },
  {
   "property": "C02",
   "status": "proved",
   "theorems": [
    "Skyfield.C02_is_gregorian_day_number",
    "Skyfield.C02_agrees_with_every_gregorian_count",
    "Skyfield.C02_order",
    "Skyfield.C02_weekday",
    "Skyfield.C02_day_of_year"
   ],
   "note": ""
  },
  {
   "property": "C03",
   "status": "proved",
   "theorems": [
    "Skyfield.C03_reads_correct_calendar",
    "Skyfield.C03_julian_day_number_exists",
    "Skyfield.C03_cutoff_roundtrip_iff",
    "Skyfield.C03_ancient_cutoff_fails",
    "Skyfield.C03_date_to_jd",
    "Skyfield.C03_papal",
    "Skyfield.C03_english",
    "Skyfield.C03_reads_civil_date",
    "Skyfield.C03_civil_date_to_jd"
   ],
   "note": "Exact characterisation of the cutoffs for which the two conversions agree; the failure for ancient cutoffs is proved as C03_ancient_cutoff_fails."
  },
  {
   "property": "C04",
   "status": "proved",
   "theorems": [
    "Skyfield.C04_month_overflow",
    "Skyfield.C04_day_overflow",
    "Skyfield.C04_day_overflow_date"
   ],
   "note": ""
  },
  {
   "property": "C05",
   "status": "proved",
   "theorems": [
    "Skyfield.C05_utc_instant",
    "Skyfield.C05_utc_roundtrip",
    "Skyfield.C05_utc_denotes",
    "Skyfield.C05_coherent"
   ],
   "note": ""
  },
  {
   "property": "C06",
   "status": "proved",
   "theorems": [
    "Skyfield.C06_second_60_iff",
    "Skyfield.C06_toordinal",
    "Skyfield.C06_toordinal_not_monotone",
    "Skyfield.C06_leap_seconds",
    "Skyfield.C06_dut1"
   ],
   "note": ""
  },
  {
   "property": "C07",
   "status": "proved",
   "theorems": [
    "Skyfield.C07_later_reading_is_later",
    "Skyfield.C07_later_instant_reads_later",
    "Skyfield.C07_date_order"
   ],
   "note": ""
  },
  {
   "property": "C08",
   "status": "proved",
   "theorems": [
    "Skyfield.C08_iso_nearest",
    "Skyfield.C08_jpl_nearest",
    "Skyfield.C08_datetime_nearest",
    "Skyfield.C08_datetime_roundtrip",
    "Skyfield.C08_strftime_second",
    "Skyfield.C08_strftime_weekday",
    "Skyfield.C08_strftime_minute",
    "Skyfield.C08_strftime_minute_not_nearest"
   ],
   "note": ""
  },
  {
   "property": "C09",
   "status": "proved",
   "theorems": [
    "Skyfield.C09_calendar_tuple",
    "Skyfield.C09_calendar_roundtrip",
    "Skyfield.C09_strftime_second",
    "Skyfield.C09_strftime_all",
    "Skyfield.C09_weekday_wrong_before_jd_zero"
   ],
   "note": ""
  },
  {
   "property": "C10",
   "status": "proved",
   "theorems": [
    "Skyfield.C10_add_num",
    "Skyfield.C10_sub_num",
    "Skyfield.C10_add_delta",
    "Skyfield.C10_sub_delta",
    "Skyfield.C10_diff",
    "Skyfield.C10_eq",
    "Skyfield.C10_lt",
    "Skyfield.C10_roundtrip",
    "Skyfield.C10_order_laws",
    "Skyfield.C10_add_moves_tai",
    "Skyfield.C10_tai_consistent"
   ],
   "note": ""
  },
  {
   "property": "C11",
   "status": "proved",
   "theorems": [
    "Skyfield.C11_tdb_calendar",
    "Skyfield.C11_tdb_jd_consistent",
    "Skyfield.C11_jd_reads_back",
    "Skyfield.C11_tt_minus_tai",
    "Skyfield.C11_calendar_reads_back",
    "Skyfield.C11_julian_year_of_time",
    "Skyfield.C11_julian_year",
    "Skyfield.C11_ut1",
    "Skyfield.C11_tdb_jd"
   ],
   "note": ""
  },
  {
   "property": "C12",
   "status": "proved",
   "theorems": [
    "Skyfield.C12_within_2ms",
    "Skyfield.C12_not_for_all_dates"
   ],
   "note": ""
  },
  {
   "property": "C13",
   "status": "proved",
   "theorems": [
    "Skyfield.C13_table_entry",
    "Skyfield.C13_linear_between",
    "Skyfield.C13_outside",
    "Skyfield.C13_piece_used",
    "Skyfield.C13_derivative",
    "Skyfield.C13_joining_spline",
    "Skyfield.C13_no_jumps",
    "Skyfield.C13_recent_slope",
    "Skyfield.C13_steps_bounded"
   ],
   "note": ""
  },
  {
   "property": "C14",
   "status": "proved",
   "theorems": [
    "Skyfield.C14_linspace"
   ],
   "note": ""
  },
  {
   "property": "C15",
   "status": "proved",
   "theorems": [
    "Skyfield.C15_events_are_real"
   ],
   "note": ""
  },
  {
   "property": "C16",
   "status": "proved",
   "theorems": [
    "Skyfield.C16_increasing",
    "Skyfield.C16_story",
    "Skyfield.C16_no_change_missed",
    "Skyfield.C16_sample_spacing"
   ],
   "note": ""
  },
  {
   "property": "C17",
   "status": "proved",
   "theorems": [
    "Skyfield.C17_terminates",
    "Skyfield.C17_two_subdivisions_never_stop",
    "Skyfield.C17_one_subdivision_loses_events"
   ],
   "note": ""
  },
  {
   "property": "C18",
   "status": "proved",
   "theorems": [
    "Skyfield.C18_maxima",
    "Skyfield.C18_between_lower",
    "Skyfield.C18_no_maximum_missed",
    "Skyfield.C18_sample_spacing",
    "Skyfield.C18_epsilon_not_honoured",
    "Skyfield.C18_plateau_value"
   ],
   "note": ""
  },
  {
   "property": "C19",
   "status": "proved",
   "theorems": [
    "Skyfield.C19_minima"
   ],
   "note": ""
  },
  {
   "property": "C20",
   "status": "proved",
   "theorems": [
    "Skyfield.C20_angle_constants",
    "Skyfield.C20_distance",
    "Skyfield.C20_distance_init",
    "Skyfield.C20_light_seconds",
    "Skyfield.C20_velocity",
    "Skyfield.C20_velocity_init",
    "Skyfield.C20_angle_rate",
    "Skyfield.C20_kept",
    "Skyfield.C20_interpret_angle"
   ],
   "note": ""
  },
  {
   "property": "C21",
   "status": "proved",
   "theorems": [
    "Skyfield.C21_decompose",
    "Skyfield.C21_sign",
    "Skyfield.C21_sign_of_zero"
   ],
   "note": ""
  },
  {
   "property": "C22",
   "status": "proved",
   "theorems": [
    "Skyfield.C22_integers",
    "Skyfield.C22_text",
    "Skyfield.C22_text_no_places"
   ],
   "note": ""
  },
  {
   "property": "C23",
   "status": "proved",
   "theorems": [
    "Skyfield.C23_tuple",
    "Skyfield.C23_wms",
    "Skyfield.C23_round_trip",
    "Skyfield.C23_integer_minus_zero"
   ],
   "note": ""
  },
  {
   "property": "C24",
   "status": "proved",
   "theorems": [
    "Skyfield.C24_any_history",
    "Skyfield.C24_refused",
    "Skyfield.C24_preference",
    "Skyfield.C24_bare_radians"
   ],
   "note": ""
  },
  {
   "property": "C25",
   "status": "proved",
   "theorems": [
    "Skyfield.C25_atomic",
    "Skyfield.C25_returns",
    "Skyfield.C25_others_untouched",
    "Skyfield.C25_truncated_stream",
    "Skyfield.C25_leftover"
   ],
   "note": ""
  },
  {
   "property": "C26",
   "status": "proved",
   "theorems": [
    "Skyfield.C26_destination",
    "Skyfield.C26_own_files",
    "Skyfield.C26_others_untouched"
   ],
   "note": ""
  },
  {
   "property": "C27",
   "status": "proved",
   "theorems": [
    "Skyfield.C27_backup",
    "Skyfield.C27_nothing_lost",
    "Skyfield.C27_no_dot",
    "Skyfield.C27_concurrent_loss"
   ],
   "note": ""
  },
  {
   "property": "C28",
   "status": "proved",
   "theorems": [
    "Skyfield.C28_first_rule",
    "Skyfield.C28_resolve",
    "Skyfield.C28_present",
    "Skyfield.C28_open_present",
    "Skyfield.C28_open_local",
    "Skyfield.C28_absent",
    "Skyfield.C28_unknown_format",
    "Skyfield.C28_unknown_url",
    "Skyfield.C28_never_replaced",
    "Skyfield.C28_fetched_once"
   ],
   "note": ""
  },
  {
   "property": "C29",
   "status": "proved",
   "theorems": [
    "Skyfield.C29_pairs",
    "Skyfield.C29_every_pair",
    "Skyfield.C29_no_line_twice",
    "Skyfield.C29_satellites",
    "Skyfield.C29_accepted",
    "Skyfield.C29_names",
    "Skyfield.C29_two_parentheses"
   ],
   "note": ""
  },
  {
   "property": "C30",
   "status": "proved",
   "theorems": [
    "Skyfield.C30_leap_dates",
    "Skyfield.C30_leap_table",
    "Skyfield.C30_daily",
    "Skyfield.C30_consistent",
    "Skyfield.C30_no_jump",
    "Skyfield.C30_legacy_leaps",
    "Skyfield.C30_legacy_delta_t",
    "Skyfield.C30_preds_month",
    "Skyfield.C30_more_complete_file",
    "Skyfield.C30_no_leap_in_file"
   ],
   "note": ""
  },
  {
   "property": "C31",
   "status": "proved",
   "theorems": [
    "Skyfield.C31_ends",
    "Skyfield.C31_value",
    "Skyfield.C31_chain",
    "Skyfield.C31_terminates",
    "Skyfield.C31_contains",
    "Skyfield.C31_known",
    "Skyfield.C31_loop",
    "Skyfield.C31_barycenter",
    "Skyfield.C31_first_center_only"
   ],
   "note": ""
  },
  {
   "property": "C32",
   "status": "proved",
   "theorems": [
    "Skyfield.C32_covering_segment",
    "Skyfield.C32_array",
    "Skyfield.C32_uncovered"
   ],
   "note": ""
  },
  {
   "property": "C33",
   "status": "proved",
   "theorems": [
    "Skyfield.C33_ends",
    "Skyfield.C33_value",
    "Skyfield.C33_displacement",
    "Skyfield.C33_refused",
    "Skyfield.C33_neg_neg",
    "Skyfield.C33_observer_gcrs",
    "Skyfield.C33_chained",
    "Skyfield.C33_order"
   ],
   "note": ""
  },
  {
   "property": "C34",
   "status": "proved",
   "theorems": [
    "Skyfield.C34_consistent",
    "Skyfield.C34_converges",
    "Skyfield.C34_converges_solar_system",
    "Skyfield.C34_unique_light_time",
    "Skyfield.C34_accuracy",
    "Skyfield.C34_place",
    "Skyfield.C34_array_agrees",
    "Skyfield.C34_fast_refused"
   ],
   "note": ""
  },
  {
   "property": "C35",
   "status": "proved",
   "theorems": [
    "Skyfield.C35_rot_x",
    "Skyfield.C35_rot_y",
    "Skyfield.C35_rot_z",
    "Skyfield.C35_rot_direction",
    "Skyfield.C35_precession",
    "Skyfield.C35_precession_epoch",
    "Skyfield.C35_nutation",
    "Skyfield.C35_polar_motion",
    "Skyfield.C35_bias",
    "Skyfield.C35_bias_not_exact",
    "Skyfield.C35_fixed_frames",
    "Skyfield.C35_frames",
    "Skyfield.C35_horizon",
    "Skyfield.C35_planet",
    "Skyfield.C35_planet_horizon"
   ],
   "note": ""
  },
  {
   "property": "C36",
   "status": "proved",
   "theorems": [
    "Skyfield.C36_altaz",
    "Skyfield.C36_altaz_earth",
    "Skyfield.C36_radec",
    "Skyfield.C36_radec_epoch",
    "Skyfield.C36_range",
    "Skyfield.C36_round_trip",
    "Skyfield.C36_meaning",
    "Skyfield.C36_round_trip'",
    "Skyfield.C36_pole"
   ],
   "note": ""
  },
  {
   "property": "C37",
   "status": "proved",
   "theorems": [
    "Skyfield.C37_angle",
    "Skyfield.C37_arccos",
    "Skyfield.C37_symmetric",
    "Skyfield.C37_scale",
    "Skyfield.C37_extremes"
   ],
   "note": ""
  },
  {
   "property": "C38",
   "status": "proved",
   "theorems": [
    "Skyfield.C38_identity",
    "Skyfield.C38_xyz",
    "Skyfield.C38_identity_up_to",
    "Skyfield.C38_itrs",
    "Skyfield.C38_distance",
    "Skyfield.C38_earth_fixed_velocity",
    "Skyfield.C38_horizon_velocity",
    "Skyfield.C38_place_at_rest",
    "Skyfield.C38_planet_velocity",
    "Skyfield.C38_planet_rotation",
    "Skyfield.C38_planet_place",
    "Skyfield.C38_planet_frame_velocity_lacks_rotation",
    "Skyfield.C38_polar_motion_velocity",
    "Skyfield.C38_polar_motion_error",
    "Skyfield.C38_polar_motion_velocity_differs"
   ],
   "note": ""
  },
  {
   "property": "C39",
   "status": "proved",
   "theorems": [
    "Skyfield.C39_intersections",
    "Skyfield.C39_inside"
   ],
   "note": ""
  },
  {
   "property": "C40",
   "status": "proved",
   "theorems": [
    "Skyfield.C40_first_point"
   ],
   "note": ""
  },
  {
   "property": "C41",
   "status": "proved",
   "theorems": [
    "Skyfield.C41_sunlit",
    "Skyfield.C41_sunlit_segment",
    "Skyfield.C41_behind_earth"
   ],
   "note": ""
  },
  {
   "property": "C42",
   "status": "proved",
   "theorems": [
    "Skyfield.C42_position",
    "Skyfield.C42_fixed_point",
    "Skyfield.C42_longitude",
    "Skyfield.C42_ranges",
    "Skyfield.C42_accuracy",
    "Skyfield.C42_wgs84_and_iers2010",
    "Skyfield.C42_wgs84",
    "Skyfield.C42_subpoint",
    "Skyfield.C42_semi_axes",
    "Skyfield.C42_published_axes",
    "Skyfield.C42_wgs84_published",
    "Skyfield.C42_iers2010_published"
   ],
   "note": ""
  },
  {
   "property": "C43",
   "status": "proved",
   "theorems": [
    "Skyfield.C43_deflector_place",
    "Skyfield.C43_limb_angles",
    "Skyfield.C43_limb_meaning",
    "Skyfield.C43_earth_deflection",
    "Skyfield.C43_no_earth_deflection",
    "Skyfield.C43_aberration_angle",
    "Skyfield.C43_aberration_plane",
    "Skyfield.C43_aberration_zero",
    "Skyfield.C43_aberration_length",
    "Skyfield.C43_aberration_einstein",
    "Skyfield.C43_aberration_inverse",
    "Skyfield.C43_deflection_perpendicular",
    "Skyfield.C43_deflection_mass",
    "Skyfield.C43_deflection_size",
    "Skyfield.C43_deflection_away",
    "Skyfield.C43_deflection_none_when_aligned",
    "Skyfield.C43_deflection_bound",
    "Skyfield.C43_deflection_nan",
    "Skyfield.C43_observer_at_deflector",
    "Skyfield.C43_closest_approach",
    "Skyfield.C43_apparent",
    "Skyfield.C43_apparent_at_rest",
    "Skyfield.C43_apparent_exceptions"
   ],
   "note": ""
  },
  {
   "property": "C44",
   "status": "proved",
   "theorems": [
    "Skyfield.C44_position",
    "Skyfield.C44_angular_momentum",
    "Skyfield.C44_energy",
    "Skyfield.C44_eccentricity_vector",
    "Skyfield.C44_accepted",
    "Skyfield.C44_unchecked_side"
   ],
   "note": ""
  },
  {
   "property": "C45",
   "status": "proved",
   "theorems": [
    "Skyfield.C45_zero_time",
    "Skyfield.C45_angular_momentum",
    "Skyfield.C45_newton",
    "Skyfield.C45_solver",
    "Skyfield.C45_propagate",
    "Skyfield.C45_stumpff"
   ],
   "note": ""
  },
  {
   "property": "C46",
   "status": "proved",
   "theorems": [
    "Skyfield.C46_phase_angle",
    "Skyfield.C46_range",
    "Skyfield.C46_full_and_new",
    "Skyfield.C46_directions",
    "Skyfield.C46_lit_area"
   ],
   "note": ""
  },
  {
   "property": "C47",
   "status": "proved",
   "theorems": [
    "Skyfield.C47_season",
    "Skyfield.C47_moon_phase",
    "Skyfield.C47_moon_phase_angle",
    "Skyfield.C47_solar_term",
    "Skyfield.C47_solar_term_season",
    "Skyfield.C47_twilight",
    "Skyfield.C47_twilight_monotone",
    "Skyfield.C47_day_is_sun_up",
    "Skyfield.C47_opposition",
    "Skyfield.C47_meridian",
    "Skyfield.C47_body_up",
    "Skyfield.C47_moon_node"
   ],
   "note": ""
  },
  {
   "property": "C48",
   "status": "proved",
   "theorems": [
    "Skyfield.C48_classification",
    "Skyfield.C48_reported",
    "Skyfield.C48_umbra",
    "Skyfield.C48_penumbra",
    "Skyfield.C48_none_missed",
    "Skyfield.C48_none_invented",
    "Skyfield.C48_search_angle",
    "Skyfield.C48_closest"
   ],
   "note": ""
  },
  {
   "property": "C49",
   "status": "proved",
   "theorems": [
    "Skyfield.C49_rotation_angle",
    "Skyfield.C49_rotation_angle_split",
    "Skyfield.C49_sidereal_time",
    "Skyfield.C49_apparent_and_local",
    "Skyfield.C49_hour_angle",
    "Skyfield.C49_sidereal_minus_ra"
   ],
   "note": ""
  },
  {
   "property": "C50",
   "status": "proved",
   "theorems": [
    "Skyfield.C50_cell",
    "Skyfield.C50_lookup",
    "Skyfield.C50_local",
    "Skyfield.C50_bundled_sorted",
    "Skyfield.C50_total",
    "Skyfield.C50_poles",
    "Skyfield.C50_names",
    "Skyfield.C50_names_trimmed",
    "Skyfield.C50_named",
    "Skyfield.C50_all_reached"
   ],
   "note": ""
  },
  {
   "property": "C51",
   "status": "proved",
   "theorems": [
    "Skyfield.C51_reads",
    "Skyfield.C51_time"
   ],
   "note": ""
  },
  {
   "property": "C52",
   "status": "proved",
   "theorems": [
    "Skyfield.C52_getitem",
    "Skyfield.C52_single",
    "Skyfield.C52_per_time",
    "Skyfield.C52_commutes",
    "Skyfield.C52_iter",
    "Skyfield.C52_columns",
    "Skyfield.C52_history",
    "Skyfield.C52_history_commutes",
    "Skyfield.C52_slice",
    "Skyfield.C52_negative_index",
    "Skyfield.C52_reversed",
    "Skyfield.C52_mask"
   ],
   "note": ""
  },
  {
   "property": "C53",
   "status": "partial",
   "theorems": [
    "Skyfield.C53_line_tokens",
    "Skyfield.C53_file_tokens",
    "Skyfield.C53_unclosed_block",
    "Skyfield.C53_parse",
    "Skyfield.C53_untouched",
    "Skyfield.C53_load_partial",
    "Skyfield.C53_only_extended",
    "Skyfield.C53_scalar_extension_lost",
    "Skyfield.C53_file",
    "Skyfield.C53_magic",
    "Skyfield.C53_tab_refused",
    "Skyfield.C53_one_letter_refused"
   ],
   "note": "Tokenising, parsing and loading are proved for every well-formed kernel, except a += after a one-value =, which the code drops: C53_scalar_extension_lost proves the loss."
  },
  {
   "property": "C54",
   "status": "proved",
   "theorems": [
    "Skyfield.C54_epoch_year",
    "Skyfield.C54_target",
    "Skyfield.C54_tle_epoch",
    "Skyfield.C54_satrec_epoch",
    "Skyfield.C54_omm_epoch",
    "Skyfield.C54_zero_at_epoch"
   ],
   "note": ""
  },
  {
   "property": "C55",
   "status": "proved",
   "theorems": [
    "Skyfield.C55_center",
    "Skyfield.C55_radius",
    "Skyfield.C55_formula",
    "Skyfield.C55_conformal",
    "Skyfield.C55_pole"
   ],
   "note": ""
  },
  {
   "property": "C56",
   "status": "proved",
   "theorems": [
    "Skyfield.C56_maxima_terminate"
   ],
   "note": ""
  },
  {
   "property": "C57",
   "status": "proved",
   "theorems": [
    "Skyfield.C57_range_rate",
    "Skyfield.C57_lat_rate",
    "Skyfield.C57_lon_rate"
   ],
   "note": ""
  },
  {
   "property": "C58",
   "status": "proved",
   "theorems": [
    "Skyfield.C58_kepler_equation",
    "Skyfield.C58_eccentric_anomaly_accuracy",
    "Skyfield.C58_true_anomaly",
    "Skyfield.C58_hyperbolic_true_anomaly",
    "Skyfield.C58_circular_refused",
    "Skyfield.C58_parabola_wrong",
    "Skyfield.C58_hyperbola_equation",
    "Skyfield.C58_comet_perihelion",
    "Skyfield.C58_from_mean",
    "Skyfield.C58_hyperbola_wrong"
   ],
   "note": ""
  },
  {
   "property": "C59",
   "status": "proved",
   "theorems": [
    "Skyfield.C59_hour_angle",
    "Skyfield.C59_direction",
    "Skyfield.C59_never",
    "Skyfield.C59_intersection",
    "Skyfield.C59_candidates"
   ],
   "note": ""
  },
  {
   "property": "C60",
   "status": "proved",
   "theorems": [
    "Skyfield.C60_angle",
    "Skyfield.C60_rate",
    "Skyfield.C60_velocity",
    "Skyfield.C60_length",
    "Skyfield.C60_no_polar_motion",
    "Skyfield.C60_two_ways_position",
    "Skyfield.C60_two_ways_velocity",
    "Skyfield.C60_distance_kept"
   ],
   "note": ""
  },
  {
   "property": "C61",
   "status": "proved",
   "theorems": [
    "Skyfield.C61_outside",
    "Skyfield.C61_refract",
    "Skyfield.C61_standard",
    "Skyfield.C61_diverges"
   ],
   "note": ""
  },
  {
   "property": "C62",
   "status": "proved",
   "theorems": [
    "Skyfield.C62_longitudes",
    "Skyfield.C62_ranges",
    "Skyfield.C62_round_trip",
    "Skyfield.C62_round_trip'",
    "Skyfield.C62_gm"
   ],
   "note": ""
  },
  {
   "property": "C63",
   "status": "proved",
   "theorems": [
    "Skyfield.C63_vis_viva",
    "Skyfield.C63_period",
    "Skyfield.C63_apsides",
    "Skyfield.C63_ellipse",
    "Skyfield.C63_hyperbola"
   ],
   "note": ""
  },
  {
   "property": "C64",
   "status": "partial",
   "theorems": [
    "Skyfield.C64_mean_longitude",
    "Skyfield.C64_constant",
    "Skyfield.C64_mean_anomaly",
    "Skyfield.C64_periapsis_time_partial",
    "Skyfield.C64_hyperbola_wrong",
    "Skyfield.C64_periapsis_time_not_always"
   ],
   "note": "Constancy and uniform mean anomaly proved for every two-body motion. The periapsis time is proved for ellipses, parabolas and near hyperbolas; for hyperbolas beyond |a|(e cosh pi - 1) the code's answer is wrong (C64_hyperbola_wrong, C64_periapsis_time_not_always), because the hyperbolic anomaly is wrapped as if it were an angle."
  },
  {
   "property": "C65",
   "status": "proved",
   "theorems": [
    "Skyfield.C65_transits_once",
    "Skyfield.C65_risings_once",
    "Skyfield.C65_settings_once",
    "Skyfield.C65_fast_target_missed"
   ],
   "note": ""
  },
  {
   "property": "C66",
   "status": "proved",
   "theorems": [
    "Skyfield.C66_flag",
    "Skyfield.C66_flag_true",
    "Skyfield.C66_transits",
    "Skyfield.C66_start_on_transit",
    "Skyfield.C66_settings",
    "Skyfield.C66_risings",
    "Skyfield.C66_never_rises",
    "Skyfield.C66_never_sets",
    "Skyfield.C66_last_step",
    "Skyfield.C66_horizons"
   ],
   "note": ""
  },
  {
   "property": "C67",
   "status": "proved",
   "theorems": [
    "Skyfield.C67_in_order",
    "Skyfield.C67_rising",
    "Skyfield.C67_setting",
    "Skyfield.C67_culmination",
    "Skyfield.C67_all_culminations",
    "Skyfield.C67_story",
    "Skyfield.C67_culmination_in_pass",
    "Skyfield.C67_no_crossing_missed",
    "Skyfield.C67_alternate",
    "Skyfield.C67_no_pass_missed",
    "Skyfield.C67_sampling",
    "Skyfield.C67_terminates",
    "Skyfield.C67_refused",
    "Skyfield.C67_rising_listed_after_culmination"
   ],
   "note": ""
  },
  {
   "property": "C68",
   "status": "proved",
   "theorems": [
    "Skyfield.C68_shortcut_value",
    "Skyfield.C68_shortcut_exact",
    "Skyfield.C68_shortcut"
   ],
   "note": ""
  },
  {
   "property": "C69",
   "status": "proved",
   "theorems": [
    "Skyfield.C69_arguments",
    "Skyfield.C69_parallax",
    "Skyfield.C69_single_unknown_parallax",
    "Skyfield.C69_position",
    "Skyfield.C69_gigaparsec",
    "Skyfield.C69_proper_motion",
    "Skyfield.C69_straight_line",
    "Skyfield.C69_velocity_reversed",
    "Skyfield.C69_catalogue_epoch",
    "Skyfield.C69_epoch_given_as_time",
    "Skyfield.C69_epoch_given_as_date"
   ],
   "note": ""
  },
  {
   "property": "C70",
   "status": "proved",
   "theorems": [
    "Skyfield.C70_targets",
    "Skyfield.C70_inverse_square",
    "Skyfield.C70_flux",
    "Skyfield.C70_scale",
    "Skyfield.C70_reciprocity",
    "Skyfield.C70_phase",
    "Skyfield.C70_latitudes",
    "Skyfield.C70_unknown",
    "Skyfield.C70_joins",
    "Skyfield.C70_jumps",
    "Skyfield.C70_neptune",
    "Skyfield.C70_rings"
   ],
   "note": ""
  },
  {
   "property": "C71",
   "status": "proved",
   "theorems": [
    "Skyfield.C71_radec",
    "Skyfield.C71_order",
    "Skyfield.C71_altaz",
    "Skyfield.C71_unique",
    "Skyfield.C71_cardinal",
    "Skyfield.C71_latlon_mirrored",
    "Skyfield.C71_turn"
   ],
   "note": ""
  },
  {
   "property": "C72",
   "status": "proved",
   "theorems": [
    "Skyfield.C72_difference",
    "Skyfield.C72_displacement",
    "Skyfield.C72_at",
    "Skyfield.C72_cancel",
    "Skyfield.C72_antisymmetric",
    "Skyfield.C72_neg_neg",
    "Skyfield.C72_kind",
    "Skyfield.C72_negated_kind",
    "Skyfield.C72_negated_unknown",
    "Skyfield.C72_index",
    "Skyfield.C72_index_difference",
    "Skyfield.C72_observe",
    "Skyfield.C72_apparent",
    "Skyfield.C72_index_forgets_observer",
    "Skyfield.C72_altaz_observed",
    "Skyfield.C72_observer_kept",
    "Skyfield.C72_altaz_relative",
    "Skyfield.C72_altaz_code",
    "Skyfield.C72_distance",
    "Skyfield.C72_light_time",
    "Skyfield.C72_negated_lengths",
    "Skyfield.C72_barycenter"
   ],
   "note": ""
  },
  {
   "property": "C73",
   "status": "proved",
   "theorems": [
    "Skyfield.C73_last_segment",
    "Skyfield.C73_frame",
    "Skyfield.C73_named",
    "Skyfield.C73_angles",
    "Skyfield.C73_axes",
    "Skyfield.C73_arcsecond",
    "Skyfield.C73_matrix",
    "Skyfield.C73_other_units",
    "Skyfield.C73_nested",
    "Skyfield.C73_more_angles",
    "Skyfield.C73_place_refused",
    "Skyfield.C73_place",
    "Skyfield.C73_horizon"
   ],
   "note": ""
  },
  {
   "property": "C74",
   "status": "proved",
   "theorems": [
    "Skyfield.C74_arguments",
    "Skyfield.C74_one_term",
    "Skyfield.C74_bounded",
    "Skyfield.C74_defined",
    "Skyfield.C74_truncated",
    "Skyfield.C74_iau2000b",
    "Skyfield.C74_series",
    "Skyfield.C74_continuous",
    "Skyfield.C74_iau2000b_bias",
    "Skyfield.C74_radians",
    "Skyfield.C74_radians_b",
    "Skyfield.C74_equinox_arguments",
    "Skyfield.C74_equinox_terms",
    "Skyfield.C74_sidereal",
    "Skyfield.C74_earth_tilt",
    "Skyfield.C74_obliquity"
   ],
   "note": ""
  },
  {
   "property": "C75",
   "status": "proved",
   "theorems": [
    "Skyfield.C75_nutation",
    "Skyfield.C75_precession",
    "Skyfield.C75_every_direction",
    "Skyfield.C75_ecliptic",
    "Skyfield.C75_sidereal",
    "Skyfield.C75_three_ways",
    "Skyfield.C75_polar_motion",
    "Skyfield.C75_no_polar_motion",
    "Skyfield.C75_rate"
   ],
   "note": ""
  },
  {
   "property": "C76",
   "status": "proved",
   "theorems": [
    "Skyfield.C76_motion",
    "Skyfield.C76_at_epoch",
    "Skyfield.C76_comet_accepted",
    "Skyfield.C76_comet_perihelion",
    "Skyfield.C76_perihelion_date",
    "Skyfield.C76_never_closer",
    "Skyfield.C76_attraction",
    "Skyfield.C76_comet_elements",
    "Skyfield.C76_minor_planet",
    "Skyfield.C76_minor_planet_elements",
    "Skyfield.C76_true_anomaly_units",
    "Skyfield.C76_mpcorb_line",
    "Skyfield.C76_true_anomaly_either_unit",
    "Skyfield.C76_true_anomaly_refused",
    "Skyfield.C76_true_anomaly_state"
   ],
   "note": ""
  },
  {
   "property": "C77",
   "status": "proved",
   "theorems": [
    "Skyfield.C77_epoch",
    "Skyfield.C77_epoch_injective",
    "Skyfield.C77_designation",
    "Skyfield.C77_designation_hundred",
    "Skyfield.C77_already_unpacked",
    "Skyfield.C77_idempotent"
   ],
   "note": ""
  },
  {
   "property": "C78",
   "status": "proved",
   "theorems": [
    "Skyfield.C78_same_moment",
    "Skyfield.C78_moment",
    "Skyfield.C78_refused",
    "Skyfield.C78_elapsed",
    "Skyfield.C78_roundtrip",
    "Skyfield.C78_reading",
    "Skyfield.C78_back",
    "Skyfield.C78_utc_arguments",
    "Skyfield.C78_list",
    "Skyfield.C78_years",
    "Skyfield.C78_wrong_complaint",
    "Skyfield.C78_julian_side"
   ],
   "note": ""
  },
  {
   "property": "C79",
   "status": "proved",
   "theorems": [
    "Skyfield.C79_rates",
    "Skyfield.C79_earth_fixed_rates",
    "Skyfield.C79_altaz_rates",
    "Skyfield.C79_inertial_rates",
    "Skyfield.C79_rate_units",
    "Skyfield.C79_guard",
    "Skyfield.C79_separation",
    "Skyfield.C79_euclidean",
    "Skyfield.C79_triangle",
    "Skyfield.C79_arrays",
    "Skyfield.C79_mismatch",
    "Skyfield.C79_epochs",
    "Skyfield.C79_ecliptic_agree",
    "Skyfield.C79_ecliptic_velocity",
    "Skyfield.C79_cirs_float",
    "Skyfield.C79_cirs",
    "Skyfield.C79_hour_angle",
    "Skyfield.C79_itrf",
    "Skyfield.C79_high_accuracy_wrap"
   ],
   "note": ""
  },
  {
   "property": "C80",
   "status": "proved",
   "theorems": [
    "Skyfield.C80_line",
    "Skyfield.C80_short_line",
    "Skyfield.C80_file",
    "Skyfield.C80_table_times",
    "Skyfield.C80_late_cutoff",
    "Skyfield.C80_table_rows",
    "Skyfield.C80_angles",
    "Skyfield.C80_straight",
    "Skyfield.C80_small",
    "Skyfield.C80_displacement",
    "Skyfield.C80_no_table"
   ],
   "note": ""
  },
  {
   "property": "C81",
   "status": "proved",
   "theorems": [
    "Skyfield.C81_tt_attribute",
    "Skyfield.C81_collapse",
    "Skyfield.C81_less_than",
    "Skyfield.C81_equal",
    "Skyfield.C81_trichotomy",
    "Skyfield.C81_difference",
    "Skyfield.C81_add_days",
    "Skyfield.C81_add_timedelta",
    "Skyfield.C81_calendar",
    "Skyfield.C81_weekday",
    "Skyfield.C81_weekday_wrong",
    "Skyfield.C81_second_sixty",
    "Skyfield.C81_rounding",
    "Skyfield.C81_utc_instant",
    "Skyfield.C81_utc_roundtrip",
    "Skyfield.C81_utc_readback",
    "Skyfield.C81_read_utc"
   ],
   "note": ""
  },
  {
   "property": "C82",
   "status": "proved",
   "theorems": [
    "Skyfield.C82_search_ends",
    "Skyfield.C82_events_are_real",
    "Skyfield.C82_no_change_missed",
    "Skyfield.C82_too_fine_never_ends"
   ],
   "note": ""
  },
  {
   "property": "C83",
   "status": "proved",
   "theorems": [
    "Skyfield.C83_every_position",
    "Skyfield.C83_one_latitude_and_height",
    "Skyfield.C83_rebuild",
    "Skyfield.C83_geographic_position",
    "Skyfield.C83_round_trip",
    "Skyfield.C83_refused",
    "Skyfield.C83_subpoint",
    "Skyfield.C83_topos",
    "Skyfield.C83_topos_refused",
    "Skyfield.C83_terra",
    "Skyfield.C83_reverse_terra",
    "Skyfield.C83_reverse_terra_pole",
    "Skyfield.C83_published_axes",
    "Skyfield.C83_equator"
   ],
   "note": ""
  },
  {
   "property": "C84",
   "status": "proved",
   "theorems": [
    "Skyfield.C84_integers",
    "Skyfield.C84_print_order",
    "Skyfield.C84_text",
    "Skyfield.C84_split",
    "Skyfield.C84_tuple_is_wms",
    "Skyfield.C84_read",
    "Skyfield.C84_split_and_read",
    "Skyfield.C84_typed_is_printed",
    "Skyfield.C84_convert",
    "Skyfield.C84_radians"
   ],
   "note": ""
  },
  {
   "property": "C85",
   "status": "proved",
   "theorems": [
    "Skyfield.C85_values",
    "Skyfield.C85_no_waiting",
    "Skyfield.C85_time",
    "Skyfield.C85_locale",
    "Skyfield.C85_no_deadlock"
   ],
   "note": ""
  },
  {
   "property": "C86",
   "status": "proved",
   "theorems": [
    "Skyfield.C86_elementwise",
    "Skyfield.C86_apoapsis",
    "Skyfield.C86_stumpff",
    "Skyfield.C86_propagate"
   ],
   "note": ""
  },
  {
   "property": "C87",
   "status": "proved",
   "theorems": [
    "Skyfield.C87_modulo",
    "Skyfield.C87_modulo_exact",
    "Skyfield.C87_modulo_reaches",
    "Skyfield.C87_modulo_full",
    "Skyfield.C87_ranges",
    "Skyfield.C87_tau_is_two_pi",
    "Skyfield.C87_half_turns",
    "Skyfield.C87_meridian",
    "Skyfield.C87_codes",
    "Skyfield.C87_whole_turn_is_spring",
    "Skyfield.C87_conjunction_code",
    "Skyfield.C87_conjunction_code_two"
   ],
   "note": ""
  },
  {
   "property": "C88",
   "status": "proved",
   "theorems": [
    "Skyfield.C88_star_at_times",
    "Skyfield.C88_stars_at_time",
    "Skyfield.C88_star_at_time",
    "Skyfield.C88_stars_at_times_raise",
    "Skyfield.C88_one_row_raises",
    "Skyfield.C88_one_row_mixes_coordinates",
    "Skyfield.C88_one_row_direction",
    "Skyfield.C88_separation",
    "Skyfield.C88_aberration"
   ],
   "note": ""
  },
  {
   "property": "C89",
   "status": "proved",
   "theorems": [
    "Skyfield.C89_ecliptic",
    "Skyfield.C89_b1950",
    "Skyfield.C89_bias",
    "Skyfield.C89_galactic",
    "Skyfield.C89_bias_small",
    "Skyfield.C89_bias_of_first_axis",
    "Skyfield.C89_obliquities"
   ],
   "note": ""
  },
  {
   "property": "C90",
   "status": "proved",
   "theorems": [
    "Skyfield.C90_date_and_fraction",
    "Skyfield.C90_date_alone",
    "Skyfield.C90_ut1_jd",
    "Skyfield.C90_julian_years",
    "Skyfield.C90_julian_years_have_no_members",
    "Skyfield.C90_members",
    "Skyfield.C90_calendar_dates",
    "Skyfield.C90_utc_dates",
    "Skyfield.C90_integer_dates_drop_fraction",
    "Skyfield.C90_integer_fractions_drop_date",
    "Skyfield.C90_arguments_unchanged",
    "Skyfield.C90_more_axes",
    "Skyfield.C90_keeps_callers_array",
    "Skyfield.C90_dates_alone_are_copied"
   ],
   "note": ""
  },
  {
   "property": "C91",
   "status": "proved",
   "theorems": [
    "Skyfield.C91_constellations",
    "Skyfield.C91_constellation_left_over",
    "Skyfield.C91_star_names",
    "Skyfield.C91_star_name_cut",
    "Skyfield.C91_comets_fast",
    "Skyfield.C91_comets_slow",
    "Skyfield.C91_comets_agree",
    "Skyfield.C91_comets_full_designation",
    "Skyfield.C91_comets_two_blanks",
    "Skyfield.C91_hipparcos",
    "Skyfield.C91_tycho",
    "Skyfield.C91_mpcorb_fields",
    "Skyfield.C91_mpcorb_text",
    "Skyfield.C91_mpcorb_apart"
   ],
   "note": ""
  },
  {
   "property": "C92",
   "status": "proved",
   "theorems": [
    "Skyfield.C92_report_read_back",
    "Skyfield.C92_report_first",
    "Skyfield.C92_report_next",
    "Skyfield.C92_report_names",
    "Skyfield.C92_report_date",
    "Skyfield.C92_report_date_negative",
    "Skyfield.C92_open",
    "Skyfield.C92_segment_units",
    "Skyfield.C92_range_error",
    "Skyfield.C92_range_error_type_3",
    "Skyfield.C92_names",
    "Skyfield.C92_printed_name",
    "Skyfield.C92_names_decode",
    "Skyfield.C92_closed",
    "Skyfield.C92_added"
   ],
   "note": ""
  },
  {
   "property": "C93",
   "status": "proved",
   "theorems": [
    "Skyfield.C93_many",
    "Skyfield.C93_one",
    "Skyfield.C93_empty",
    "Skyfield.C93_matrix",
    "Skyfield.C93_strings",
    "Skyfield.C93_advice"
   ],
   "note": ""
  },
  {
   "property": "C94",
   "status": "proved",
   "theorems": [
    "Skyfield.C94_julian_date",
    "Skyfield.C94_expiration",
    "Skyfield.C94_expiration_missing",
    "Skyfield.C94_single_row",
    "Skyfield.C94_builtin",
    "Skyfield.C94_old_files_come_first",
    "Skyfield.C94_finals",
    "Skyfield.C94_delta_t",
    "Skyfield.C94_bundled_is_the_file",
    "Skyfield.C94_old_table",
    "Skyfield.C94_old_files"
   ],
   "note": ""
  },
  {
   "property": "C95",
   "status": "proved",
   "theorems": [
    "Skyfield.C95_lines",
    "Skyfield.C95_sum",
    "Skyfield.C95_negated_sum",
    "Skyfield.C95_nameless_orbit",
    "Skyfield.C95_position",
    "Skyfield.C95_position_codes",
    "Skyfield.C95_codes",
    "Skyfield.C95_numbered",
    "Skyfield.C95_satellite",
    "Skyfield.C95_star"
   ],
   "note": ""
  },
  {
   "property": "C96",
   "status": "proved",
   "theorems": [
    "Skyfield.C96_cutoff",
    "Skyfield.C96_times_stay",
    "Skyfield.C96_methods_follow",
    "Skyfield.C96_utc_first",
    "Skyfield.C96_new_time",
    "Skyfield.C96_new_times_read",
    "Skyfield.C96_made_in_force",
    "Skyfield.C96_stale"
   ],
   "note": ""
  },
  {
   "property": "C97",
   "status": "proved",
   "theorems": [
    "Skyfield.C97_signed",
    "Skyfield.C97_julian_day",
    "Skyfield.C97_calendar_date",
    "Skyfield.C97_int64",
    "Skyfield.C97_int32",
    "Skyfield.C97_float",
    "Skyfield.C97_float64",
    "Skyfield.C97_roundtrip",
    "Skyfield.C97_int16_wrong",
    "Skyfield.C97_uint8_months"
   ],
   "note": ""
  },
  {
   "property": "C98",
   "status": "proved",
   "theorems": [
    "Skyfield.C98_ephemeris",
    "Skyfield.C98_unknown",
    "Skyfield.C98_addresses",
    "Skyfield.C98_kernels",
    "Skyfield.C98_tables",
    "Skyfield.C98_finals",
    "Skyfield.C98_url_name",
    "Skyfield.C98_host_only",
    "Skyfield.C98_download_then_load",
    "Skyfield.C98_download_as",
    "Skyfield.C98_paths",
    "Skyfield.C98_load_file",
    "Skyfield.C98_load_ephemeris"
   ],
   "note": ""
  },
  {
   "property": "C99",
   "status": "proved",
   "theorems": [
    "Skyfield.C99_unknown_length",
    "Skyfield.C99_zero_length",
    "Skyfield.C99_lines",
    "Skyfield.C99_percent",
    "Skyfield.C99_monotone",
    "Skyfield.C99_full_line",
    "Skyfield.C99_same_width",
    "Skyfield.C99_complete"
   ],
   "note": ""
  },
  {
   "property": "C100",
   "status": "proved",
   "theorems": [
    "Skyfield.C100_compass",
    "Skyfield.C100_altaz",
    "Skyfield.C100_zenith_distance",
    "Skyfield.C100_pole",
    "Skyfield.C100_hadec",
    "Skyfield.C100_sidereal_time",
    "Skyfield.C100_clear_view",
    "Skyfield.C100_horizon",
    "Skyfield.C100_neighbours",
    "Skyfield.C100_overhead",
    "Skyfield.C100_no_weather",
    "Skyfield.C100_weather",
    "Skyfield.C100_standard_weather",
    "Skyfield.C100_no_atmosphere"
   ],
   "note": ""
  },
  {
   "property": "C101",
   "status": "proved",
   "theorems": [
    "Skyfield.C101_nearest",
    "Skyfield.C101_exact",
    "Skyfield.C101_error",
    "Skyfield.C101_order",
    "Skyfield.C101_tie",
    "Skyfield.C101_zero",
    "Skyfield.C101_layout"
   ],
   "note": ""
  },
  {
   "property": "C102",
   "status": "proved",
   "theorems": [
    "Skyfield.C102_days",
    "Skyfield.C102_units",
    "Skyfield.C102_frame",
    "Skyfield.C102_inclination"
   ],
   "note": ""
  },
  {
   "property": "C103",
   "status": "proved",
   "theorems": [
    "Skyfield.C103_unit",
    "Skyfield.C103_pieces",
    "Skyfield.C103_utc_seconds",
    "Skyfield.C103_utc_micro",
    "Skyfield.C103_scale_text",
    "Skyfield.C103_default",
    "Skyfield.C103_utc_minutes",
    "Skyfield.C103_utc_coarse",
    "Skyfield.C103_percent_f_wrong",
    "Skyfield.C103_second_micro",
    "Skyfield.C103_r_cut_off",
    "Skyfield.C103_week_wrong"
   ],
   "note": ""
  },
  {
   "property": "C104",
   "status": "proved",
   "theorems": [
    "Skyfield.C104_one_entry",
    "Skyfield.C104_positive",
    "Skyfield.C104_systems",
    "Skyfield.C104_solar_system",
    "Skyfield.C104_gm_known",
    "Skyfield.C104_gm_unknown",
    "Skyfield.C104_reciprocal",
    "Skyfield.C104_sun",
    "Skyfield.C104_names",
    "Skyfield.C104_usual_deflectors",
    "Skyfield.C104_older_function",
    "Skyfield.C104_solar_limb"
   ],
   "note": ""
  },
  {
   "property": "C105",
   "status": "proved",
   "theorems": [
    "Skyfield.C105_ends",
    "Skyfield.C105_maxima",
    "Skyfield.C105_no_maximum_missed",
    "Skyfield.C105_minima"
   ],
   "note": ""
  },
  {
   "property": "C106",
   "status": "proved",
   "theorems": [
    "Skyfield.C106_nutation_rate",
    "Skyfield.C106_nutation_rate_b",
    "Skyfield.C106_equinox_rate",
    "Skyfield.C106_gast_defined",
    "Skyfield.C106_sidereal_gain",
    "Skyfield.C106_clocks_agree",
    "Skyfield.C106_sidereal_day"
   ],
   "note": ""
  },
  {
   "property": "C107",
   "status": "proved",
   "theorems": [
    "Skyfield.C107_apparent_near",
    "Skyfield.C107_apparent_distance",
    "Skyfield.C107_from_earth",
    "Skyfield.C107_from_earth_distance"
   ],
   "note": ""
  },
  {
   "property": "C108",
   "status": "proved",
   "theorems": [
    "Skyfield.C108_difference_message",
    "Skyfield.C108_sum_message",
    "Skyfield.C108_negated_message",
    "Skyfield.C108_message_lost",
    "Skyfield.C108_ephemeris_own",
    "Skyfield.C108_sum_ephemeris",
    "Skyfield.C108_place_keeps_ephemeris",
    "Skyfield.C108_difference_ephemeris",
    "Skyfield.C108_negated_ephemeris"
   ],
   "note": ""
  },
  {
   "property": "C109",
   "status": "proved",
   "theorems": [
    "Skyfield.C109_parallax",
    "Skyfield.C109_two_observers",
    "Skyfield.C109_far_away",
    "Skyfield.C109_old_function",
    "Skyfield.C109_star",
    "Skyfield.C109_moving_star",
    "Skyfield.C109_from_the_ground",
    "Skyfield.C109_moon_and_sun"
   ],
   "note": ""
  },
  {
   "property": "C110",
   "status": "proved",
   "theorems": [
    "Skyfield.C110_frames_of_date",
    "Skyfield.C110_place_velocity",
    "Skyfield.C110_place_velocity_tt",
    "Skyfield.C110_on_the_ground"
   ],
   "note": ""
  },
  {
   "property": "C111",
   "status": "proved",
   "theorems": [
    "Skyfield.C111_transits",
    "Skyfield.C111_transit_times",
    "Skyfield.C111_risings",
    "Skyfield.C111_settings",
    "Skyfield.C111_at_the_horizon",
    "Skyfield.C111_steady_targets",
    "Skyfield.C111_rise_set_times",
    "Skyfield.C111_rounded_angles_fail"
   ],
   "note": ""
  },
  {
   "property": "C112",
   "status": "proved",
   "theorems": [
    "Skyfield.C112_hour_angle_rate",
    "Skyfield.C112_sidereal_day"
   ],
   "note": ""
  },
  {
   "property": "C113",
   "status": "proved",
   "theorems": [
    "Skyfield.C113_loads",
    "Skyfield.C113_leap_seconds",
    "Skyfield.C113_delta_t_rate",
    "Skyfield.C113_delta_t_range",
    "Skyfield.C113_dut1",
    "Skyfield.C113_ut1_runs_on",
    "Skyfield.C113_ut1_reads_back",
    "Skyfield.C113_days_apart",
    "Skyfield.C113_on_the_ground",
    "Skyfield.C113_steps",
    "Skyfield.C113_history",
    "Skyfield.C113_far",
    "Skyfield.C113_ut1_steps_back"
   ],
   "note": ""
  },
  {
   "property": "C114",
   "status": "proved",
   "theorems": [
    "Skyfield.C114_search",
    "Skyfield.C114_place_ra",
    "Skyfield.C114_hour_angle",
    "Skyfield.C114_turning",
    "Skyfield.C114_on_the_ground",
    "Skyfield.C114_meridian_transits"
   ],
   "note": ""
  },
  {
   "property": "C115",
   "status": "proved",
   "theorems": [
    "Skyfield.C115_seasons",
    "Skyfield.C115_moon_phases",
    "Skyfield.C115_solar_terms",
    "Skyfield.C115_oppositions",
    "Skyfield.C115_moon_conjunctions",
    "Skyfield.C115_moon_conjunctions_missed",
    "Skyfield.C115_moon_nodes",
    "Skyfield.C115_inner_conjunctions",
    "Skyfield.C115_sunrise",
    "Skyfield.C115_risings",
    "Skyfield.C115_twilight",
    "Skyfield.C115_short_day_missed",
    "Skyfield.C115_search",
    "Skyfield.C115_spells",
    "Skyfield.C115_short_spell_missed",
    "Skyfield.C115_sectors",
    "Skyfield.C115_sectors_shrinking",
    "Skyfield.C115_upper_half"
   ],
   "note": ""
  },
  {
   "property": "C116",
   "status": "proved",
   "theorems": [
    "Skyfield.C116_maxima",
    "Skyfield.C116_maxima_rough",
    "Skyfield.C116_minima",
    "Skyfield.C116_early_maximum_missed",
    "Skyfield.C116_short_rise_missed",
    "Skyfield.C116_lunar_eclipses",
    "Skyfield.C116_lunar_search_ends",
    "Skyfield.C116_culminations",
    "Skyfield.C116_passes"
   ],
   "note": ""
  },
  {
   "property": "C117",
   "status": "proved",
   "theorems": [
    "Skyfield.C117_search_values",
    "Skyfield.C117_search",
    "Skyfield.C117_settles",
    "Skyfield.C117_sky_settles",
    "Skyfield.C117_sunrise",
    "Skyfield.C117_risings",
    "Skyfield.C117_twilight"
   ],
   "note": ""
  },
  {
   "property": "C118",
   "status": "proved",
   "theorems": [
    "Skyfield.C118_inner_conjunctions",
    "Skyfield.C118_fixed_latitude",
    "Skyfield.C118_moon_nodes",
    "Skyfield.C118_parts_settle",
    "Skyfield.C118_search",
    "Skyfield.C118_fixed_direction",
    "Skyfield.C118_longitude_of_date",
    "Skyfield.C118_seasons",
    "Skyfield.C118_solar_terms",
    "Skyfield.C118_moon_phases",
    "Skyfield.C118_oppositions"
   ],
   "note": ""
  },
  {
   "property": "C119",
   "status": "proved",
   "theorems": [
    "Skyfield.C119_data_first",
    "Skyfield.C119_in_order",
    "Skyfield.C119_others",
    "Skyfield.C119_backup",
    "Skyfield.C119_renamed_before_data",
    "Skyfield.C119_separately",
    "Skyfield.C119_crash",
    "Skyfield.C119_concurrent",
    "Skyfield.C119_next_load",
    "Skyfield.C119_empty_until_reload"
   ],
   "note": ""
  },
  {
   "property": "C120",
   "status": "proved",
   "theorems": [
    "Skyfield.C120_split",
    "Skyfield.C120_seasons",
    "Skyfield.C120_moon_phases",
    "Skyfield.C120_solar_terms",
    "Skyfield.C120_oppositions",
    "Skyfield.C120_moon_nodes",
    "Skyfield.C120_sunrise",
    "Skyfield.C120_risings",
    "Skyfield.C120_twilight",
    "Skyfield.C120_short_spell"
   ],
   "note": ""
  }
 ]
}