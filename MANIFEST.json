{
 "claims": [
  {
   "property": "C01",
   "status": "proved",
   "theorems": [
    "SW.Props.C01_dispatch",
    "SW.Props.C01_unknown_pair",
    "SW.Props.C01_reports"
   ],
   "note": ""
  },
  {
   "property": "C02",
   "status": "proved",
   "theorems": [
    "SW.Props.C02_C03_any_arithmetic",
    "SW.Props.C02_accepted",
    "SW.Props.C02_rejected",
    "SW.Props.C02_admissible"
   ],
   "note": ""
  },
  {
   "property": "C03",
   "status": "proved",
   "theorems": [
    "SW.Props.C02_C03_any_arithmetic",
    "SW.Props.C03_accepted",
    "SW.Props.C03_rejected",
    "SW.Props.C03_documented_180_rejected",
    "SW.Props.C03_admissible"
   ],
   "note": ""
  },
  {
   "property": "C04",
   "status": "proved",
   "theorems": [
    "SW.Props.C04_lengths",
    "SW.Props.C04_ndim"
   ],
   "note": ""
  },
  {
   "property": "C05",
   "status": "proved",
   "theorems": [
    "SW.Props.C05_shape",
    "SW.Props.C05_naive_returns",
    "SW.Props.C05_errors"
   ],
   "note": ""
  },
  {
   "property": "C06",
   "status": "proved",
   "theorems": [
    "SW.Props.C06_nat_rows",
    "SW.Props.C06_other_rows"
   ],
   "note": ""
  },
  {
   "property": "C07",
   "status": "proved",
   "theorems": [
    "SW.Props.C07_pointwise",
    "SW.Props.C07_time_only",
    "SW.Props.C07_select"
   ],
   "note": ""
  },
  {
   "property": "C08",
   "status": "proved",
   "theorems": [
    "SW.Props.C08_usecases_agree",
    "SW.Props.C08_usecases_agree_numexpr",
    "SW.Props.C08_usecases_agree_exact"
   ],
   "note": ""
  },
  {
   "property": "C09",
   "status": "proved",
   "theorems": [
    "SW.Props.C09_engines_agree",
    "SW.Props.C09_psa",
    "SW.Props.C09_psa_zenith_differs"
   ],
   "note": ""
  },
  {
   "property": "C10",
   "status": "proved",
   "theorems": [
    "SW.Props.C10_subsecond"
   ],
   "note": ""
  },
  {
   "property": "C11",
   "status": "proved",
   "theorems": [
    "SW.Props.C11_instants"
   ],
   "note": ""
  },
  {
   "property": "C12",
   "status": "proved",
   "theorems": [
    "SW.Props.C12_naive",
    "SW.Props.C12_pytz",
    "SW.Props.C12_no_zone_attribute",
    "SW.Props.C12_no_zone_attribute_wrong",
    "SW.Props.C12_fixed_offset"
   ],
   "note": ""
  },
  {
   "property": "C13",
   "status": "proved",
   "theorems": [
    "SW.Props.C13_range",
    "SW.Props.C13_iqbal_negative",
    "SW.Props.C13_iqbal_bounds",
    "SW.Props.C13_soltrack_unbounded"
   ],
   "note": ""
  },
  {
   "property": "C14",
   "status": "proved",
   "theorems": [
    "SW.Props.C14_range"
   ],
   "note": ""
  },
  {
   "property": "C15",
   "status": "proved",
   "theorems": [
    "SW.Props.C15_direction"
   ],
   "note": ""
  },
  {
   "property": "C16",
   "status": "proved",
   "theorems": [
    "SW.Props.C16_sign"
   ],
   "note": ""
  },
  {
   "property": "C17",
   "status": "proved",
   "theorems": [
    "SW.Props.C17_declination"
   ],
   "note": ""
  },
  {
   "property": "C18",
   "status": "proved",
   "theorems": [
    "SW.Props.C18_ecf"
   ],
   "note": ""
  },
  {
   "property": "C19",
   "status": "proved",
   "theorems": [
    "SW.Props.C19_eot"
   ],
   "note": ""
  },
  {
   "property": "C20",
   "status": "proved",
   "theorems": [
    "SW.Props.C20_derived",
    "SW.Props.C20_nan"
   ],
   "note": ""
  },
  {
   "property": "C21",
   "status": "proved",
   "theorems": [
    "SW.Props.C21_eth_none",
    "SW.Props.C21_eth_bounds"
   ],
   "note": ""
  },
  {
   "property": "C22",
   "status": "proved",
   "theorems": [
    "SW.Props.C22_correction",
    "SW.Props.C22_unknown",
    "SW.Props.C22_negative_zenith"
   ],
   "note": ""
  },
  {
   "property": "C23",
   "status": "proved",
   "theorems": [
    "SW.Props.C23_at_least_one",
    "SW.Props.C23_nan_iff",
    "SW.Props.C23_unknown",
    "SW.Props.C23_negative_zenith"
   ],
   "note": ""
  },
  {
   "property": "C24",
   "status": "proved",
   "theorems": [
    "SW.Props.C24_airmass_monotone"
   ],
   "note": ""
  },
  {
   "property": "C25",
   "status": "proved",
   "theorems": [
    "SW.Props.C25_sunrise_angle",
    "SW.Props.C25_pole"
   ],
   "note": ""
  },
  {
   "property": "C26",
   "status": "proved",
   "theorems": [
    "SW.Props.C26_range",
    "SW.Props.C26_equator",
    "SW.Props.C26_hemispheres",
    "SW.Props.C26_monotone"
   ],
   "note": ""
  },
  {
   "property": "C27",
   "status": "proved",
   "theorems": [
    "SW.Props.C27_sunset"
   ],
   "note": ""
  },
  {
   "property": "C28",
   "status": "proved",
   "theorems": [
    "SW.Props.C28_nat_iff",
    "SW.Props.C28_sunset_minus_sunrise"
   ],
   "note": ""
  },
  {
   "property": "C29",
   "status": "proved",
   "theorems": [
    "SW.Props.C29_symmetric"
   ],
   "note": ""
  },
  {
   "property": "C30",
   "status": "proved",
   "theorems": [
    "SW.Props.C30_tst",
    "SW.Props.C30_nat",
    "SW.Props.C30_nat_iff",
    "SW.Props.C30_longitude"
   ],
   "note": ""
  },
  {
   "property": "C31",
   "status": "proved",
   "theorems": [
    "SW.Props.C31_utc",
    "SW.Props.C31_local",
    "SW.Props.C31_no_zone_attribute",
    "SW.Props.C31_pytz"
   ],
   "note": ""
  },
  {
   "property": "C32",
   "status": "proved",
   "theorems": [
    "SW.Props.C32_incidence",
    "SW.Props.C32_nan",
    "SW.Props.C32_range",
    "SW.Props.C32_horizontal",
    "SW.Props.C32_opposite"
   ],
   "note": ""
  },
  {
   "property": "C33",
   "status": "proved",
   "theorems": [
    "SW.Props.C33_dims"
   ],
   "note": ""
  },
  {
   "property": "C34",
   "status": "proved",
   "theorems": [
    "SW.Props.C34_not_true",
    "SW.Props.C34_only_zenith"
   ],
   "note": ""
  },
  {
   "property": "C35",
   "status": "proved",
   "theorems": [
    "SW.Props.C35_refraction"
   ],
   "note": ""
  },
  {
   "property": "C36",
   "status": "proved",
   "theorems": [
    "SW.Props.C36_gregorian",
    "SW.Props.C36_civil",
    "SW.Props.C36_doy",
    "SW.Props.C36_doy_exists",
    "SW.Props.C36_series"
   ],
   "note": ""
  },
  {
   "property": "C37",
   "status": "proved",
   "theorems": [
    "SW.Props.C37_never",
    "SW.Props.C37_attributeError"
   ],
   "note": ""
  },
  {
   "property": "C38",
   "status": "proved",
   "theorems": [
    "SW.Props.C38_latitude",
    "SW.Props.C38_longitude",
    "SW.Props.C38_errors",
    "SW.Props.C38_accepted",
    "SW.Props.C38_decimal",
    "SW.Props.C38_literal"
   ],
   "note": ""
  },
  {
   "property": "C39",
   "status": "proved",
   "theorems": [
    "SW.Props.C39_display",
    "SW.Props.C39_sign_lost",
    "SW.Props.C39_sixty"
   ],
   "note": ""
  },
  {
   "property": "C40",
   "status": "proved",
   "theorems": [
    "SW.Props.C40_read",
    "SW.Props.C40_errors",
    "SW.Props.C40_values",
    "SW.Props.C40_whole_seconds",
    "SW.Props.C40_columns"
   ],
   "note": ""
  },
  {
   "property": "C41",
   "status": "proved",
   "theorems": [
    "SW.Props.C41_load",
    "SW.Props.C41_never",
    "SW.Props.C41_stuck",
    "SW.Props.C41_cached"
   ],
   "note": ""
  },
  {
   "property": "C42",
   "status": "proved",
   "theorems": [
    "SW.Props.C42_distance",
    "SW.Props.C42_sign_inverted",
    "SW.Props.C42_unwrapped",
    "SW.Props.C42_not_wrapped",
    "SW.Props.C42_frame",
    "SW.Props.C42_cell"
   ],
   "note": ""
  },
  {
   "property": "C43",
   "status": "proved",
   "theorems": [
    "SW.Props.C43_nan_cell",
    "SW.Props.C43_others"
   ],
   "note": ""
  },
  {
   "property": "C44",
   "status": "proved",
   "theorems": [
    "SW.Props.C44_binary32",
    "SW.Props.C44_nrel_binary64",
    "SW.Props.C44_nrel_call"
   ],
   "note": ""
  },
  {
   "property": "C45",
   "status": "proved",
   "theorems": [
    "SW.Props.C45_limit",
    "SW.Props.C45_zero_step",
    "SW.Props.C45_frame",
    "SW.Props.C45_request",
    "SW.Props.C45_month_window",
    "SW.Props.C45_month_steps"
   ],
   "note": ""
  },
  {
   "property": "C46",
   "status": "proved",
   "theorems": [
    "SW.Props.C46_nrel_topocentric"
   ],
   "note": ""
  },
  {
   "property": "C47",
   "status": "proved",
   "theorems": [
    "SW.Props.C47_position",
    "SW.Props.C47_nrel"
   ],
   "note": ""
  },
  {
   "property": "C48",
   "status": "proved",
   "theorems": [
    "SW.Props.C48_incidence"
   ],
   "note": ""
  },
  {
   "property": "C49",
   "status": "proved",
   "theorems": [
    "SW.Props.C49_aware"
   ],
   "note": ""
  },
  {
   "property": "C50",
   "status": "proved",
   "theorems": [
    "SW.Props.C50_polar",
    "SW.Props.C50_midlatitudes"
   ],
   "note": ""
  },
  {
   "property": "C51",
   "status": "proved",
   "theorems": [
    "SW.Props.C51_report",
    "SW.Props.C51_now",
    "SW.Props.C51_returns"
   ],
   "note": ""
  },
  {
   "property": "C52",
   "status": "proved",
   "theorems": [
    "SW.Props.C52_order",
    "SW.Props.C52_decomposition",
    "SW.Props.C52_intervals",
    "SW.Props.C52_rows",
    "SW.Props.C52_bias_sign"
   ],
   "note": ""
  },
  {
   "property": "C53",
   "status": "proved",
   "theorems": [
    "SW.Props.C53_equator",
    "SW.Props.C53_fetch",
    "SW.Props.C53_shared",
    "SW.Props.C53_close"
   ],
   "note": ""
  },
  {
   "property": "C54",
   "status": "proved",
   "theorems": [
    "SW.Props.C54_declination",
    "SW.Props.C54_eot",
    "SW.Props.C54_ecf",
    "SW.Props.C54_position"
   ],
   "note": ""
  },
  {
   "property": "C55",
   "status": "proved",
   "theorems": [
    "SW.Props.C55_psa_time",
    "SW.Props.C55_psa_position",
    "SW.Props.C55_psa_numpy_numbers",
    "SW.Props.C55_psa_agree"
   ],
   "note": ""
  },
  {
   "property": "C56",
   "status": "proved",
   "theorems": [
    "SW.Props.C56_places",
    "SW.Props.C56_no_datetime",
    "SW.Props.C56_aware",
    "SW.Props.C56_returns"
   ],
   "note": ""
  },
  {
   "property": "C57",
   "status": "proved",
   "theorems": [
    "SW.Props.C57_grid",
    "SW.Props.C57_hours",
    "SW.Props.C57_hour_labels_off",
    "SW.Props.C57_user",
    "SW.Props.C57_zone"
   ],
   "note": ""
  },
  {
   "property": "C58",
   "status": "proved",
   "theorems": [
    "SW.Props.C58_day_labels",
    "SW.Props.C58_default_days"
   ],
   "note": ""
  },
  {
   "property": "C59",
   "status": "proved",
   "theorems": [
    "SW.Props.C59_east_west",
    "SW.Props.C59_names"
   ],
   "note": ""
  },
  {
   "property": "C60",
   "status": "proved",
   "theorems": [
    "SW.Props.C60_soltrack_time",
    "SW.Props.C60_soltrack_position",
    "SW.Props.C60_soltrack_agree"
   ],
   "note": ""
  },
  {
   "property": "C61",
   "status": "proved",
   "theorems": [
    "SW.Props.C61_iqbal_time",
    "SW.Props.C61_iqbal_position",
    "SW.Props.C61_iqbal_agree"
   ],
   "note": ""
  },
  {
   "property": "C62",
   "status": "proved",
   "theorems": [
    "SW.Props.C62_nrel_time",
    "SW.Props.C62_nrel_position",
    "SW.Props.C62_nrel_binary64",
    "SW.Props.C62_nrel_agree"
   ],
   "note": ""
  },
  {
   "property": "C63",
   "status": "proved",
   "theorems": [
    "SW.Props.C63_position",
    "SW.Props.C63_declination",
    "SW.Props.C63_eot",
    "SW.Props.C63_ecf"
   ],
   "note": ""
  },
  {
   "property": "C64",
   "status": "proved",
   "theorems": [
    "SW.Props.C64_time",
    "SW.Props.C64_position",
    "SW.Props.C64_agree"
   ],
   "note": ""
  },
  {
   "property": "C65",
   "status": "proved",
   "theorems": [
    "SW.Props.C65_day",
    "SW.Props.C65_polar"
   ],
   "note": ""
  },
  {
   "property": "C66",
   "status": "proved",
   "theorems": [
    "SW.Props.C66_airmass",
    "SW.Props.C66_eth_corrected",
    "SW.Props.C66_zenith",
    "SW.Props.C66_eth",
    "SW.Props.C66_tst",
    "SW.Props.C66_sunrise_angle",
    "SW.Props.C66_times",
    "SW.Props.C66_no_event",
    "SW.Props.C66_incidence"
   ],
   "note": ""
  },
  {
   "property": "C67",
   "status": "proved",
   "theorems": [
    "SW.Props.C67_day",
    "SW.Props.C67_polar"
   ],
   "note": ""
  },
  {
   "property": "C68",
   "status": "proved",
   "theorems": [
    "SW.Props.C68_accuracy",
    "SW.Props.C68_agree",
    "SW.Props.C68_azimuth"
   ],
   "note": ""
  },
  {
   "property": "C69",
   "status": "proved",
   "theorems": [
    "SW.Props.C69_accuracy",
    "SW.Props.C69_agree"
   ],
   "note": ""
  },
  {
   "property": "C70",
   "status": "proved",
   "theorems": [
    "SW.Props.C70_position",
    "SW.Props.C70_declination",
    "SW.Props.C70_eot",
    "SW.Props.C70_ecf",
    "SW.Props.C70_apparent",
    "SW.Props.C70_float",
    "SW.Props.C70_float_apparent",
    "SW.Props.C70_float_time",
    "SW.Props.C70_float_zenith"
   ],
   "note": ""
  },
  {
   "property": "C71",
   "status": "proved",
   "theorems": [
    "SW.Props.C71_tst",
    "SW.Props.C71_tst_float",
    "SW.Props.C71_incidence",
    "SW.Props.C71_incidence_float",
    "SW.Props.C71_eth",
    "SW.Props.C71_eth_apparent",
    "SW.Props.C71_eth_float",
    "SW.Props.C71_eth_float_apparent"
   ],
   "note": ""
  },
  {
   "property": "C72",
   "status": "proved",
   "theorems": [
    "SW.Props.C72_number",
    "SW.Props.C72_clock",
    "SW.Props.C72_eot",
    "SW.Props.C72_rows",
    "SW.Props.C72_events",
    "SW.Props.C72_time",
    "SW.Props.C72_position",
    "SW.Props.C72_apparent",
    "SW.Props.C72_float_time",
    "SW.Props.C72_float_position",
    "SW.Props.C72_float_apparent",
    "SW.Props.C72_utc",
    "SW.Props.C72_float_returns"
   ],
   "note": ""
  },
  {
   "property": "C73",
   "status": "proved",
   "theorems": [
    "SW.Props.C73_day",
    "SW.Props.C73_night",
    "SW.Props.C73_float_day",
    "SW.Props.C73_float_night"
   ],
   "note": ""
  },
  {
   "property": "C74",
   "status": "proved",
   "theorems": [
    "SW.Props.C74_interp",
    "SW.Props.C74_between",
    "SW.Props.C74_through",
    "SW.Props.C74_label",
    "SW.Props.C74_area",
    "SW.Props.C74_ticks",
    "SW.Props.C74_major",
    "SW.Props.C74_major_all"
   ],
   "note": ""
  },
  {
   "property": "C75",
   "status": "proved",
   "theorems": [
    "SW.Props.C75_weekday",
    "SW.Props.C75_date",
    "SW.Props.C75_table",
    "SW.Props.C75_total",
    "SW.Props.C75_date_unique"
   ],
   "note": ""
  },
  {
   "property": "C76",
   "status": "proved",
   "theorems": [
    "SW.Props.C76_azimuth",
    "SW.Props.C76_columns",
    "SW.Props.C76_rows",
    "SW.Props.C76_accuracy"
   ],
   "note": ""
  },
  {
   "property": "C77",
   "status": "proved",
   "theorems": [
    "SW.Props.C77_airmass",
    "SW.Props.C77_airmass_apparent",
    "SW.Props.C77_airmass_float",
    "SW.Props.C77_airmass_float_apparent",
    "SW.Props.C77_daylight",
    "SW.Props.C77_daylight_float"
   ],
   "note": ""
  },
  {
   "property": "C78",
   "status": "proved",
   "theorems": [
    "SW.Props.C78_rows",
    "SW.Props.C78_accuracy"
   ],
   "note": ""
  },
  {
   "property": "C79",
   "status": "proved",
   "theorems": [
    "SW.Props.C79_labels",
    "SW.Props.C79_sel"
   ],
   "note": ""
  },
  {
   "property": "C80",
   "status": "proved",
   "theorems": [
    "SW.Props.C80_swapped_tst",
    "SW.Props.C80_unambiguous",
    "SW.Props.C80_alone",
    "SW.Props.C80_chronological",
    "SW.Props.C80_series",
    "SW.Props.C80_swapped",
    "SW.Props.C80_sound"
   ],
   "note": ""
  },
  {
   "property": "C81",
   "status": "proved",
   "theorems": [
    "SW.Props.C81_algorithms",
    "SW.Props.C81_grid",
    "SW.Props.C81_transect",
    "SW.Props.C81_azimuth",
    "SW.Props.C81_unasserted",
    "SW.Props.C81_float"
   ],
   "note": ""
  },
  {
   "property": "C82",
   "status": "proved",
   "theorems": [
    "SW.Props.C82_units",
    "SW.Props.C82_ranges",
    "SW.Props.C82_other_ranges",
    "SW.Props.C82_eth_range"
   ],
   "note": ""
  },
  {
   "property": "C83",
   "status": "proved",
   "theorems": [
    "SW.Props.C83_refraction",
    "SW.Props.C83_accuracy",
    "SW.Props.C83_agree",
    "SW.Props.C83_float"
   ],
   "note": ""
  },
  {
   "property": "C84",
   "status": "proved",
   "theorems": [
    "SW.Props.C84_bounds",
    "SW.Props.C84_noon",
    "SW.Props.C84_nearer_noon",
    "SW.Props.C84_one_instant",
    "SW.Props.C84_float"
   ],
   "note": ""
  },
  {
   "property": "C85",
   "status": "proved",
   "theorems": [
    "SW.Props.C85_import",
    "SW.Props.C85_names",
    "SW.Props.C85_complete",
    "SW.Props.C85_missing",
    "SW.Props.C85_usable"
   ],
   "note": ""
  },
  {
   "property": "C86",
   "status": "proved",
   "theorems": [
    "SW.Props.C86_unchanged",
    "SW.Props.C86_result",
    "SW.Props.C86_each",
    "SW.Props.C86_input_new",
    "SW.Props.C86_input_write",
    "SW.Props.C86_get",
    "SW.Props.C86_raised",
    "SW.Props.C86_held",
    "SW.Props.C86_reads",
    "SW.Props.C86_alias"
   ],
   "note": ""
  },
  {
   "property": "C87",
   "status": "proved",
   "theorems": [
    "SW.Props.C87_declination",
    "SW.Props.C87_declination_float",
    "SW.Props.C87_daylight",
    "SW.Props.C87_midnight_sun",
    "SW.Props.C87_polar_night",
    "SW.Props.C87_midnight_sun_float",
    "SW.Props.C87_polar_night_float"
   ],
   "note": ""
  },
  {
   "property": "C88",
   "status": "proved",
   "theorems": [
    "SW.Props.C88_winter",
    "SW.Props.C88_summer",
    "SW.Props.C88_noon",
    "SW.Props.C88_float"
   ],
   "note": ""
  },
  {
   "property": "C89",
   "status": "proved",
   "theorems": [
    "SW.Props.C89_distance",
    "SW.Props.C89_irradiance",
    "SW.Props.C89_eot",
    "SW.Props.C89_float"
   ],
   "note": ""
  },
  {
   "property": "C90",
   "status": "proved",
   "theorems": [
    "SW.Props.C90_position",
    "SW.Props.C90_apparent",
    "SW.Props.C90_float",
    "SW.Props.C90_float_apparent",
    "SW.Props.C90_later",
    "SW.Props.C90_tomorrow",
    "SW.Props.C90_tst",
    "SW.Props.C90_forward"
   ],
   "note": ""
  },
  {
   "property": "C91",
   "status": "proved",
   "theorems": [
    "SW.Props.C91_declination",
    "SW.Props.C91_declination_float",
    "SW.Props.C91_daylight",
    "SW.Props.C91_equinox",
    "SW.Props.C91_equinox_float"
   ],
   "note": ""
  },
  {
   "property": "C92",
   "status": "proved",
   "theorems": [
    "SW.Props.C92_measures",
    "SW.Props.C92_nothing_measured",
    "SW.Props.C92_succeeds",
    "SW.Props.C92_text",
    "SW.Props.C92_fails"
   ],
   "note": ""
  },
  {
   "property": "C93",
   "status": "proved",
   "theorems": [
    "SW.Props.C93_pvlib",
    "SW.Props.C93_sg2",
    "SW.Props.C93_no_ecf"
   ],
   "note": ""
  },
  {
   "property": "C94",
   "status": "proved",
   "theorems": [
    "SW.Props.C94_one_sun",
    "SW.Props.C94_overhead",
    "SW.Props.C94_two_places",
    "SW.Props.C94_any_algorithms",
    "SW.Props.C94_float"
   ],
   "note": ""
  },
  {
   "property": "C95",
   "status": "proved",
   "theorems": [
    "SW.Props.C95_strips",
    "SW.Props.C95_key",
    "SW.Props.C95_accuracy",
    "SW.Props.C95_seconds",
    "SW.Props.C95_requests"
   ],
   "note": ""
  },
  {
   "property": "C96",
   "status": "proved",
   "theorems": [
    "SW.Props.C96_default",
    "SW.Props.C96_flags",
    "SW.Props.C96_days",
    "SW.Props.C96_curves"
   ],
   "note": ""
  },
  {
   "property": "C97",
   "status": "proved",
   "theorems": [
    "SW.Props.C97_files",
    "SW.Props.C97_measurements",
    "SW.Props.C97_table",
    "SW.Props.C97_stops",
    "SW.Props.C97_completes",
    "SW.Props.C97_broken",
    "SW.Props.C97_lost",
    "SW.Props.C97_kill"
   ],
   "note": ""
  },
  {
   "property": "C98",
   "status": "proved",
   "theorems": [
    "SW.Props.C98_solstice",
    "SW.Props.C98_solstice_float"
   ],
   "note": ""
  },
  {
   "property": "C99",
   "status": "proved",
   "theorems": [
    "SW.Props.C99_apsides",
    "SW.Props.C99_apsides_float"
   ],
   "note": ""
  },
  {
   "property": "C100",
   "status": "proved",
   "theorems": [
    "SW.Props.C100_clock",
    "SW.Props.C100_clock_float",
    "SW.Props.C100_signs"
   ],
   "note": ""
  }
 ]
}