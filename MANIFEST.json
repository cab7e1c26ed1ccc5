{
 "claims": [
  {
   "property": "C01",
   "status": "proved",
   "theorems": [
    "Sla.Props.C01_cldj_counts_days",
    "Sla.Props.C01_dayNumber_unique",
    "Sla.Props.C01_cldj_nextDay",
    "Sla.Props.C01_cldj_epoch"
   ],
   "note": "Model over unbounded integers; 32-bit range in C08."
  },
  {
   "property": "C02",
   "status": "proved",
   "theorems": [
    "Sla.Props.C02_djcl_sound",
    "Sla.Props.C02_djcl_cldj",
    "Sla.Props.C02_djcl_range",
    "Sla.Props.C02_cldj_djcl"
   ],
   "note": "Exact real arithmetic; djcl's fraction and floor without rounding."
  },
  {
   "property": "C03",
   "status": "proved",
   "theorems": [
    "Sla.Props.C03_cldj_status",
    "Sla.Props.C03_cldj_badDay_value"
   ],
   "note": ""
  },
  {
   "property": "C04",
   "status": "proved",
   "theorems": [
    "Sla.Props.C04_century_default",
    "Sla.Props.C04_completedYear_unique"
   ],
   "note": ""
  },
  {
   "property": "C05",
   "status": "proved",
   "theorems": [
    "Sla.Props.C05_clyd_interval",
    "Sla.Props.C05_clyd_gregorian",
    "Sla.Props.C05_clyd_1900",
    "Sla.Props.C05_clyd_julian",
    "Sla.Props.C05_clyd_status"
   ],
   "note": "In March-December 1900 the code returns the Julian-calendar ordinal day, one more than the Gregorian one (C05_clyd_1900)."
  },
  {
   "property": "C06",
   "status": "proved",
   "theorems": [
    "Sla.Props.C06_djcal",
    "Sla.Props.C06_djcal_range"
   ],
   "note": "10^ndp exact; ndp >= 10 overflows int in the code."
  },
  {
   "property": "C07",
   "status": "proved",
   "theorems": [
    "Sla.Props.C07_dat_counts_leap_seconds",
    "Sla.Props.C07_dat_monotone",
    "Sla.Props.C07_dat_steps",
    "Sla.Props.C07_dat_rubber_seconds",
    "Sla.Props.C07_dat_not_monotone_before_1972",
    "Sla.Props.C07_dtt"
   ],
   "note": ""
  },
  {
   "property": "C08",
   "status": "proved",
   "theorems": [
    "Sla.Props.C08_cldj_no_overflow",
    "Sla.Props.C08_clyd_no_overflow",
    "Sla.Props.C08_djcl_no_overflow",
    "Sla.Props.C08_sharp",
    "Sla.Props.C08_djcl_overflow_witness",
    "Sla.Props.C08_cldj_overflow_witness"
   ],
   "note": "Sharp bounds: C08_sharp shows overflow for every accepted date beyond them."
  },
  {
   "property": "C09",
   "status": "proved",
   "theorems": [
    "Sla.Props.C09_combn_valid",
    "Sla.Props.C09_combn_exactly_once",
    "Sla.Props.C09_combn_status",
    "Sla.Props.C09_combn_first"
   ],
   "note": ""
  },
  {
   "property": "C10",
   "status": "proved",
   "theorems": [
    "Sla.Props.C10_combn_bad_arg",
    "Sla.Props.C10_combn_restart",
    "Sla.Props.C10_combn_frame",
    "Sla.Props.C10_combn_reads"
   ],
   "note": ""
  },
  {
   "property": "C11",
   "status": "proved",
   "theorems": [
    "Sla.Props.C11_permut_valid",
    "Sla.Props.C11_permut_exactly_once",
    "Sla.Props.C11_permut_status"
   ],
   "note": ""
  },
  {
   "property": "C12",
   "status": "proved",
   "theorems": [
    "Sla.Props.C12_permut_bad_arg",
    "Sla.Props.C12_permut_restart",
    "Sla.Props.C12_permut_frame",
    "Sla.Props.C12_permut_safe",
    "Sla.Props.C12_permut_corrupt_state"
   ],
   "note": "Negative digits beyond the first state element are undefined behaviour (C12_permut_corrupt_state)."
  },
  {
   "property": "C13",
   "status": "proved",
   "theorems": [
    "Sla.Props.C13_dd2tf_fields",
    "Sla.Props.C13_fields_unique",
    "Sla.Props.C13_nrs_overflow"
   ],
   "note": "ndp >= 10 overflows the int scale factor (C13_nrs_overflow); dr2tf/dr2af are dd2tf of a scaled angle."
  },
  {
   "property": "C14",
   "status": "proved",
   "theorems": [
    "Sla.Props.C14_dtf2d_status",
    "Sla.Props.C14_daf2r_status",
    "Sla.Props.C14_days_round_trip",
    "Sla.Props.C14_hms_round_trip",
    "Sla.Props.C14_dms_round_trip"
   ],
   "note": ""
  },
  {
   "property": "C15",
   "status": "proved",
   "theorems": [
    "Sla.Props.C15_dranrm",
    "Sla.Props.C15_dranrm_unique",
    "Sla.Props.C15_dranrm_laws",
    "Sla.Props.C15_drange_odd",
    "Sla.Props.C15_drange",
    "Sla.Props.C15_drange_laws"
   ],
   "note": ""
  },
  {
   "property": "C16",
   "status": "proved",
   "theorems": [
    "Sla.Props.C16_range",
    "Sla.Props.C16_gmsta_eq_gmst",
    "Sla.Props.C16_split_independent",
    "Sla.Props.C16_gmst_at_midnight"
   ],
   "note": ""
  },
  {
   "property": "C17",
   "status": "proved",
   "theorems": [
    "Sla.Props.C17_julian_inverse",
    "Sla.Props.C17_besselian_inverse",
    "Sla.Props.C17_strict_mono",
    "Sla.Props.C17_anchors",
    "Sla.Props.C17_epco",
    "Sla.Props.C17_epco_lower_case"
   ],
   "note": "Lower-case 'j' as result type and 'b' as given type are rejected by the code (C17_epco_lower_case)."
  },
  {
   "property": "C18",
   "status": "proved",
   "theorems": [
    "Sla.Props.C18_primitives",
    "Sla.Props.C18_composition",
    "Sla.Props.C18_rotation",
    "Sla.Props.C18_rotation_cross"
   ],
   "note": ""
  },
  {
   "property": "C19",
   "status": "proved",
   "theorems": [
    "Sla.Props.C19_dmxm",
    "Sla.Props.C19_dmxv",
    "Sla.Props.C19_dimxv",
    "Sla.Props.C19_dvxv",
    "Sla.Props.C19_dvn",
    "Sla.Props.C19_dvn_overlap_hazard"
   ],
   "note": ""
  },
  {
   "property": "C20",
   "status": "proved",
   "theorems": [
    "Sla.Props.C20_dvn"
   ],
   "note": ""
  },
  {
   "property": "C21",
   "status": "proved",
   "theorems": [
    "Sla.Props.C21_rotation",
    "Sla.Props.C21_turns",
    "Sla.Props.C21_along_axis",
    "Sla.Props.C21_axis_and_inverse",
    "Sla.Props.C21_trace"
   ],
   "note": ""
  },
  {
   "property": "C22",
   "status": "proved",
   "theorems": [
    "Sla.Props.C22_av_round_trip",
    "Sla.Props.C22_matrix_round_trip",
    "Sla.Props.C22_half_turn"
   ],
   "note": "dm2av returns the null vector for a half-turn (C22_half_turn)."
  },
  {
   "property": "C23",
   "status": "proved",
   "theorems": [
    "Sla.Props.C23_deuler",
    "Sla.Props.C23_rotation",
    "Sla.Props.C23_identity",
    "Sla.Props.C23_single_axis"
   ],
   "note": ""
  },
  {
   "property": "C24",
   "status": "proved",
   "theorems": [
    "Sla.Props.C24_rotations",
    "Sla.Props.C24_equal_epochs",
    "Sla.Props.C24_prenut",
    "Sla.Props.C24_ecmat",
    "Sla.Props.C24_nut"
   ],
   "note": ""
  },
  {
   "property": "C25",
   "status": "proved",
   "theorems": [
    "Sla.Props.C25_dcs2c",
    "Sla.Props.C25_dcc2s",
    "Sla.Props.C25_special",
    "Sla.Props.C25_round_trip"
   ],
   "note": ""
  },
  {
   "property": "C26",
   "status": "proved",
   "theorems": [
    "Sla.Props.C26_ds2c6",
    "Sla.Props.C26_ds2c6_dc62s",
    "Sla.Props.C26_dc62s_ds2c6",
    "Sla.Props.C26_dc62s_rates",
    "Sla.Props.C26_null",
    "Sla.Props.C26_axis"
   ],
   "note": ""
  },
  {
   "property": "C27",
   "status": "proved",
   "theorems": [
    "Sla.Props.C27_dsepv_angle",
    "Sla.Props.C27_symmetric_range",
    "Sla.Props.C27_scale",
    "Sla.Props.C27_triangle",
    "Sla.Props.C27_dsep"
   ],
   "note": ""
  },
  {
   "property": "C28",
   "status": "proved",
   "theorems": [
    "Sla.Props.C28_dbear",
    "Sla.Props.C28_dbear_sense",
    "Sla.Props.C28_dpav",
    "Sla.Props.C28_pole"
   ],
   "note": "dpav returns 0 at a pole while dbear does not (C28_pole)."
  },
  {
   "property": "C29",
   "status": "proved",
   "theorems": [
    "Sla.Props.C29_de2h",
    "Sla.Props.C29_dh2e",
    "Sla.Props.C29_round_trip",
    "Sla.Props.C29_round_trip'"
   ],
   "note": ""
  },
  {
   "property": "C30",
   "status": "proved",
   "theorems": [
    "Sla.Props.C30_zd"
   ],
   "note": ""
  },
  {
   "property": "C31",
   "status": "proved",
   "theorems": [
    "Sla.Props.C31_positions",
    "Sla.Props.C31_rates"
   ],
   "note": ""
  },
  {
   "property": "C32",
   "status": "proved",
   "theorems": [
    "Sla.Props.C32_pa",
    "Sla.Props.C32_altaz"
   ],
   "note": ""
  },
  {
   "property": "C33",
   "status": "proved",
   "theorems": [
    "Sla.Props.C33_pda2h",
    "Sla.Props.C33_pdq2h"
   ],
   "note": "Inputs at least 1e-12 away from the critical values."
  },
  {
   "property": "C34",
   "status": "proved",
   "theorems": [
    "Sla.Props.C34_status",
    "Sla.Props.C34_ds2tp",
    "Sla.Props.C34_ds2tp_clamped",
    "Sla.Props.C34_dtp2s",
    "Sla.Props.C34_plane_round_trip",
    "Sla.Props.C34_plane_too_far",
    "Sla.Props.C34_star_round_trip"
   ],
   "note": ""
  },
  {
   "property": "C35",
   "status": "proved",
   "theorems": [
    "Sla.Props.C35_dv2tp",
    "Sla.Props.C35_dtp2v",
    "Sla.Props.C35_dv2tp_pole",
    "Sla.Props.C35_dtp2v_pole"
   ],
   "note": ""
  },
  {
   "property": "C36",
   "status": "proved",
   "theorems": [
    "Sla.Props.C36_dtps2c",
    "Sla.Props.C36_count",
    "Sla.Props.C36_dtpv2c",
    "Sla.Props.C36_dtpv2c_borderline",
    "Sla.Props.C36_pole_star"
   ],
   "note": "Negative results: dtpv2c misses the borderline solution (C36_dtpv2c_borderline); for a star exactly at the pole with xi = 0 the second solution of dtps2c is wrong (C36_pole_star). The positive theorems exclude these cases. dtps2c outputs must not overlap the input."
  },
  {
   "property": "C37",
   "status": "proved",
   "theorems": [
    "Sla.Props.C37_pcd",
    "Sla.Props.C37_pcd_unpcd",
    "Sla.Props.C37_nearest",
    "Sla.Props.C37_unpcd_pcd",
    "Sla.Props.C37_double_root"
   ],
   "note": "Negative result: at a double root unpcd returns the far root (C37_double_root)."
  },
  {
   "property": "C38",
   "status": "proved",
   "theorems": [
    "Sla.Props.C38_status",
    "Sla.Props.C38_inverse",
    "Sla.Props.C38_twice"
   ],
   "note": ""
  },
  {
   "property": "C39",
   "status": "proved",
   "theorems": [
    "Sla.Props.C39_recompose",
    "Sla.Props.C39_ranges",
    "Sla.Props.C39_degenerate"
   ],
   "note": "Negative result: a model with a zero column does not recompose (C39_degenerate)."
  },
  {
   "property": "C40",
   "status": "proved",
   "theorems": [
    "Sla.Props.C40_optimum",
    "Sla.Props.C40_status"
   ],
   "note": "Exact real arithmetic; the only failure apart from too few samples is a report by dmat (C43)."
  },
  {
   "property": "C41",
   "status": "proved",
   "theorems": [
    "Sla.Props.C41_optimum",
    "Sla.Props.C41_status",
    "Sla.Props.C41_two_samples",
    "Sla.Props.C41_coincident"
   ],
   "note": "Negative result: two coincident samples give success with a zero model (C41_coincident)."
  },
  {
   "property": "C42",
   "status": "proved",
   "theorems": [
    "Sla.Props.C42_pxy",
    "Sla.Props.C42_no_samples",
    "Sla.Props.C42_fit_rms"
   ],
   "note": ""
  },
  {
   "property": "C43",
   "status": "proved",
   "theorems": [
    "Sla.Props.C43_dmat",
    "Sla.Props.C43_singular",
    "Sla.Props.C43_threshold",
    "Sla.Props.C43_false_alarm"
   ],
   "note": "Exact real arithmetic. Negative result: a small regular matrix is reported as singular (C43_false_alarm). smat is the same code in float."
  },
  {
   "property": "C44",
   "status": "proved",
   "theorems": [
    "Sla.Props.C44_svdsol",
    "Sla.Props.C44_square",
    "Sla.Props.C44_svdcov",
    "Sla.Props.C44_covariance",
    "Sla.Props.C44_inverse",
    "Sla.Props.C44_no_zero_division"
   ],
   "note": ""
  },
  {
   "property": "C45",
   "status": "proved",
   "theorems": [
    "Sla.Props.C45_shape",
    "Sla.Props.C45_total"
   ],
   "note": "Exact arithmetic except for the negligibility test, which is a parameter."
  },
  {
   "property": "C46",
   "status": "proved",
   "theorems": [
    "Sla.Props.C46_eqecl",
    "Sla.Props.C46_ecleq",
    "Sla.Props.C46_ecliptic_inverse",
    "Sla.Props.C46_ecliptic_separation",
    "Sla.Props.C46_matrices",
    "Sla.Props.C46_galactic_inverse"
   ],
   "note": ""
  },
  {
   "property": "C47",
   "status": "proved",
   "theorems": [
    "Sla.Props.C47_etrms",
    "Sla.Props.C47_size",
    "Sla.Props.C47_directions",
    "Sla.Props.C47_round_trip"
   ],
   "note": ""
  },
  {
   "property": "C48",
   "status": "proved",
   "theorems": [
    "Sla.Props.C48_pm",
    "Sla.Props.C48_same_epoch",
    "Sla.Props.C48_radial",
    "Sla.Props.C48_rate"
   ],
   "note": ""
  },
  {
   "property": "C49",
   "status": "proved",
   "theorems": [
    "Sla.Props.C49_ellipsoid",
    "Sla.Props.C49_height",
    "Sla.Props.C49_position",
    "Sla.Props.C49_velocity"
   ],
   "note": ""
  },
  {
   "property": "C50",
   "status": "proved",
   "theorems": [
    "Sla.Props.C50_projections",
    "Sla.Props.C50_rverot"
   ],
   "note": ""
  },
  {
   "property": "C51",
   "status": "proved",
   "theorems": [
    "Sla.Props.C51_airmas"
   ],
   "note": ""
  },
  {
   "property": "C52",
   "status": "proved",
   "theorems": [
    "Sla.Props.C52_refz_zero",
    "Sla.Props.C52_refz_continuous",
    "Sla.Props.C52_refz_held",
    "Sla.Props.C52_refz_fixed_point",
    "Sla.Props.C52_refv_azimuth",
    "Sla.Props.C52_refv_zero",
    "Sla.Props.C52_refv_raises"
   ],
   "note": ""
  },
  {
   "property": "C53",
   "status": "proved",
   "theorems": [
    "Sla.Props.C53_refco",
    "Sla.Props.C53_refcoq",
    "Sla.Props.C53_atmdsp",
    "Sla.Props.C53_atmdsp_back",
    "Sla.Props.C53_atmdsp_not_inverse"
   ],
   "note": ""
  },
  {
   "property": "C54",
   "status": "proved",
   "theorems": [
    "Sla.Props.C54_quadrature",
    "Sla.Props.C54_terminates",
    "Sla.Props.C54_zenith_distance",
    "Sla.Props.C54_limits",
    "Sla.Props.C54_vacuum",
    "Sla.Props.C54_singular"
   ],
   "note": ""
  },
  {
   "property": "C55",
   "status": "proved",
   "theorems": [
    "Sla.Props.C55_terminates",
    "Sla.Props.C55_pair",
    "Sla.Props.C55_floor",
    "Sla.Props.C55_history"
   ],
   "note": ""
  },
  {
   "property": "C56",
   "status": "proved",
   "theorems": [
    "Sla.Props.C56_number",
    "Sla.Props.C56_identifier",
    "Sla.Props.C56_full_identifier",
    "Sla.Props.C56_fields",
    "Sla.Props.C56_regions"
   ],
   "note": ""
  },
  {
   "property": "C57",
   "status": "proved",
   "theorems": [
    "Sla.Props.C57_polmo",
    "Sla.Props.C57_no_motion"
   ],
   "note": ""
  },
  {
   "property": "C58",
   "status": "proved",
   "theorems": [
    "Sla.Props.C58_preces",
    "Sla.Props.C58_separation",
    "Sla.Props.C58_same_epoch"
   ],
   "note": ""
  },
  {
   "property": "C59",
   "status": "proved",
   "theorems": [
    "Sla.Props.C59_epv",
    "Sla.Props.C59_tables",
    "Sla.Props.C59_orbit"
   ],
   "note": ""
  },
  {
   "property": "C60",
   "status": "proved",
   "theorems": [
    "Sla.Props.C60_number",
    "Sla.Props.C60_text",
    "Sla.Props.C60_current",
    "Sla.Props.C60_ambiguous"
   ],
   "note": ""
  },
  {
   "property": "C61",
   "status": "proved",
   "theorems": [
    "Sla.Props.C61_nutation_bounded",
    "Sla.Props.C61_nutation_series"
   ],
   "note": ""
  },
  {
   "property": "C62",
   "status": "proved",
   "theorems": [
    "Sla.Props.C62_inverse",
    "Sla.Props.C62_ranges"
   ],
   "note": ""
  },
  {
   "property": "C63",
   "status": "proved",
   "theorems": [
    "Sla.Props.C63_seed",
    "Sla.Props.C63_first_seed_only"
   ],
   "note": ""
  },
  {
   "property": "C64",
   "status": "proved",
   "theorems": [
    "Sla.Props.C64_dmoon",
    "Sla.Props.C64_orbit",
    "Sla.Props.C64_velocity"
   ],
   "note": ""
  },
  {
   "property": "C65",
   "status": "proved",
   "theorems": [
    "Sla.Props.C65_instant",
    "Sla.Props.C65_carry"
   ],
   "note": ""
  },
  {
   "property": "C66",
   "status": "proved",
   "theorems": [
    "Sla.Props.C66_moon",
    "Sla.Props.C66_radial"
   ],
   "note": ""
  },
  {
   "property": "C67",
   "status": "proved",
   "theorems": [
    "Sla.Props.C67_earth"
   ],
   "note": ""
  },
  {
   "property": "C68",
   "status": "proved",
   "theorems": [
    "Sla.Props.C68_ecor",
    "Sla.Props.C68_opposite",
    "Sla.Props.C68_bounds"
   ],
   "note": ""
  },
  {
   "property": "C69",
   "status": "proved",
   "theorems": [
    "Sla.Props.C69_orthonormal"
   ],
   "note": ""
  },
  {
   "property": "C70",
   "status": "proved",
   "theorems": [
    "Sla.Props.C70_backward",
    "Sla.Props.C70_exact",
    "Sla.Props.C70_singular_values",
    "Sla.Props.C70_least_squares"
   ],
   "note": "Conditional on status zero, as in the documentation; false without full rank (C71)."
  },
  {
   "property": "C71",
   "status": "proved",
   "theorems": [
    "Sla.Props.C71_rank_deficient"
   ],
   "note": "Deviation of the code: EISPACK's `rv1(i) = c*rv1(i)` is missing at src/svd.cc:278-283."
  },
  {
   "property": "C72",
   "status": "proved",
   "theorems": [
    "Sla.Props.C72_series",
    "Sla.Props.C72_bounded",
    "Sla.Props.C72_agreement",
    "Sla.Props.C72_obliquity",
    "Sla.Props.C72_equinoxes"
   ],
   "note": ""
  },
  {
   "property": "C73",
   "status": "proved",
   "theorems": [
    "Sla.Props.C73_series",
    "Sla.Props.C73_topocentric",
    "Sla.Props.C73_local_time",
    "Sla.Props.C73_annual",
    "Sla.Props.C73_rate",
    "Sla.Props.C73_monotone"
   ],
   "note": ""
  },
  {
   "property": "C74",
   "status": "proved",
   "theorems": [
    "Sla.Props.C74_wait",
    "Sla.Props.C74_fractions"
   ],
   "note": ""
  },
  {
   "property": "C75",
   "status": "proved",
   "theorems": [
    "Sla.Props.C75_velocity",
    "Sla.Props.C75_barycentric",
    "Sla.Props.C75_equinox",
    "Sla.Props.C75_distance",
    "Sla.Props.C75_ecliptic"
   ],
   "note": ""
  },
  {
   "property": "C76",
   "status": "proved",
   "theorems": [
    "Sla.Props.C76_agreement"
   ],
   "note": ""
  },
  {
   "property": "C77",
   "status": "proved",
   "theorems": [
    "Sla.Props.C77_drange",
    "Sla.Props.C77_range",
    "Sla.Props.C77_dranrm",
    "Sla.Props.C77_ranorm",
    "Sla.Props.C77_dranrm_full_turn"
   ],
   "note": "Negative result: dranrm returns the whole turn for tiny negative arguments (C77_dranrm_full_turn). Overflow not modelled."
  },
  {
   "property": "C78",
   "status": "proved",
   "theorems": [
    "Sla.Props.C78_djcl",
    "Sla.Props.C78_djcl_whole_day",
    "Sla.Props.C78_djcl_cldj",
    "Sla.Props.C78_djcal"
   ],
   "note": "Negative result: a fraction of a whole day (C78_djcl_whole_day)."
  },
  {
   "property": "C79",
   "status": "proved",
   "theorems": [
    "Sla.Props.C79_dd2tf",
    "Sla.Props.C79_days_round_trip",
    "Sla.Props.C79_hms_round_trip",
    "Sla.Props.C79_dms_round_trip",
    "Sla.Props.C79_dms_nine_decimals"
   ],
   "note": "Negative result: 9 decimals of an arcsecond (C79_dms_nine_decimals)."
  },
  {
   "property": "C80",
   "status": "proved",
   "theorems": [
    "Sla.Props.C80_identity",
    "Sla.Props.C80_symmetry",
    "Sla.Props.C80_separation",
    "Sla.Props.C80_dvn",
    "Sla.Props.C80_dvn_underflow"
   ],
   "note": "Negative result: underflow in dvn (C80_dvn_underflow). Overflow not modelled."
  },
  {
   "property": "C81",
   "status": "proved",
   "theorems": [
    "Sla.Props.C81_monotone",
    "Sla.Props.C81_julian_whole",
    "Sla.Props.C81_accuracy",
    "Sla.Props.C81_round_trip",
    "Sla.Props.C81_besselian_whole"
   ],
   "note": "Overflow not modelled."
  },
  {
   "property": "C82",
   "status": "proved",
   "theorems": [
    "Sla.Props.C82_gmst",
    "Sla.Props.C82_gmsta"
   ],
   "note": "Overflow not modelled."
  },
  {
   "property": "C83",
   "status": "proved",
   "theorems": [
    "Sla.Props.C83_apply",
    "Sla.Props.C83_chain",
    "Sla.Props.C83_product",
    "Sla.Props.C83_deuler"
   ],
   "note": "Library sine and cosine are parameters with a stated error."
  },
  {
   "property": "C84",
   "status": "proved",
   "theorems": [
    "Sla.Props.C84_dsepv",
    "Sla.Props.C84_dsep",
    "Sla.Props.C84_dcc2s"
   ],
   "note": "Library sine, cosine and atan2 are parameters with a stated error."
  },
  {
   "property": "C85",
   "status": "proved",
   "theorems": [
    "Sla.Props.C85_normal",
    "Sla.Props.C85_distribution"
   ],
   "note": "Exact arithmetic and an ideal generator; the engine the library seeds is not modelled. 1e-20 is the probability of the floor in the code."
  },
  {
   "property": "C86",
   "status": "proved",
   "theorems": [
    "Sla.Props.C86_troposphere",
    "Sla.Props.C86_hot_air",
    "Sla.Props.C86_stratosphere",
    "Sla.Props.C86_bending",
    "Sla.Props.C86_levels",
    "Sla.Props.C86_parts",
    "Sla.Props.C86_quadrature",
    "Sla.Props.C86_refro",
    "Sla.Props.C86_search",
    "Sla.Props.C86_refcoq",
    "Sla.Props.C86_atmdsp"
   ],
   "note": "Exact real arithmetic. C86_hot_air is a finding: above 320 K index and gradient disagree. The pressure exponent of the vapour is taken as the code has it."
  },
  {
   "property": "C87",
   "status": "proved",
   "theorems": [
    "Sla.Props.C87_refz",
    "Sla.Props.C87_round_trip",
    "Sla.Props.C87_refz_accuracy",
    "Sla.Props.C87_refv",
    "Sla.Props.C87_refv_accuracy",
    "Sla.Props.C87_refz_documented",
    "Sla.Props.C87_refv_documented"
   ],
   "note": "Exact real arithmetic. C87_refz_documented and C87_refv_documented show that two documented accuracies fail at sea level."
  },
  {
   "property": "C88",
   "status": "proved",
   "theorems": [
    "Sla.Props.C88_reversible",
    "Sla.Props.C88_preces_round_trip",
    "Sla.Props.C88_prec_composition",
    "Sla.Props.C88_prebn_composition",
    "Sla.Props.C88_precl_there_and_back",
    "Sla.Props.C88_precl_not_reversible",
    "Sla.Props.C88_precl_documented",
    "Sla.Props.C88_models_agree"
   ],
   "note": "Exact real arithmetic. C88_precl_not_reversible and C88_precl_documented are findings: reversal would need 139.7496 = 30.2226 + 109.5270 for the coefficient 139.7459 of precl."
  },
  {
   "property": "C89",
   "status": "proved",
   "theorems": [
    "Sla.Props.C89_shape",
    "Sla.Props.C89_least",
    "Sla.Props.C89_continuous",
    "Sla.Props.C89_against_leap_seconds"
   ],
   "note": "Exact real arithmetic."
  },
  {
   "property": "C90",
   "status": "proved",
   "theorems": [
    "Sla.Props.C90_days_round_trip",
    "Sla.Props.C90_hms_round_trip",
    "Sla.Props.C90_dms_round_trip",
    "Sla.Props.C90_days_two_decimals",
    "Sla.Props.C90_hms_two_decimals",
    "Sla.Props.C90_dms_one_decimal",
    "Sla.Props.C90_cr2tf",
    "Sla.Props.C90_cr2af"
   ],
   "note": "IEEE binary32 with binary64 where the code converts to double. C90_days_two_decimals, C90_hms_two_decimals and C90_dms_one_decimal show that the number of decimals cannot be raised."
  },
  {
   "property": "C91",
   "status": "proved",
   "theorems": [
    "Sla.Props.C91_vn",
    "Sla.Props.C91_vn_underflow",
    "Sla.Props.C91_apply",
    "Sla.Props.C91_chain",
    "Sla.Props.C91_product",
    "Sla.Props.C91_products",
    "Sla.Props.C91_sepv",
    "Sla.Props.C91_sep",
    "Sla.Props.C91_euler"
   ],
   "note": "IEEE binary32, no overflow; the errors of the library's sin, cos and atan2 are parameters. C91_vn_underflow is the failure outside the range."
  },
  {
   "property": "C92",
   "status": "proved",
   "theorems": [
    "Sla.Props.C92_moon"
   ],
   "note": "Exact real arithmetic; both series with their coefficients and arguments are read from the source. The documented accuracy of moon (0.5 arcminute, 1000 km) is against an observed ephemeris and is not claimed; the bounds here are worst cases over all phases."
  },
  {
   "property": "C93",
   "status": "proved",
   "theorems": [
    "Sla.Props.C93_de2h",
    "Sla.Props.C93_dh2e",
    "Sla.Props.C93_round_trip",
    "Sla.Props.C93_zd",
    "Sla.Props.C93_dbear",
    "Sla.Props.C93_pa"
   ],
   "note": "IEEE binary64, no overflow; the errors of the library's sin, cos and atan2 are parameters (at most 1e-3 and 0.1). Signed zeros are not modelled: atan2(0, x) for negative x may be within e' of either pi or -pi, except for zd, where atan2 is required to be near pi."
  },
  {
   "property": "C94",
   "status": "proved",
   "theorems": [
    "Sla.Props.C94_angles",
    "Sla.Props.C94_fields",
    "Sla.Props.C94_composition",
    "Sla.Props.C94_calendar",
    "Sla.Props.C94_epochs",
    "Sla.Props.C94_vectors",
    "Sla.Props.C94_vectors_single",
    "Sla.Props.C94_separation",
    "Sla.Props.C94_dvn_overflows",
    "Sla.Props.C94_spherical",
    "Sla.Props.C94_earth",
    "Sla.Props.C94_moon",
    "Sla.Props.C94_coordinates",
    "Sla.Props.C94_tangent",
    "Sla.Props.C94_velocities",
    "Sla.Props.C94_observer",
    "Sla.Props.C94_nutation"
   ],
   "note": "Stated as: replacing the rounding function by any other that agrees with it on results up to the largest number does not change the result. Sines and cosines of the library are assumed at most 2 and arc tangents at most 4. The witness for dvn is C94_dvn_overflows."
  },
  {
   "property": "C95",
   "status": "proved",
   "theorems": [
    "Sla.Props.C95_svd_reads",
    "Sla.Props.C95_svd_writes",
    "Sla.Props.C95_svdsol",
    "Sla.Props.C95_svdcov",
    "Sla.Props.C95_dmat"
   ],
   "note": "The arrays a and v of svd are functions of row and column (cells are distinct because n <= np); those of svdsol and svdcov are flat."
  },
  {
   "property": "C96",
   "status": "proved",
   "theorems": [
    "Sla.Props.C96_combn",
    "Sla.Props.C96_combn_sequence",
    "Sla.Props.C96_combn_overflow",
    "Sla.Props.C96_permut",
    "Sla.Props.C96_permut_sequence",
    "Sla.Props.C96_permut_overflow",
    "Sla.Props.C96_permut_full",
    "Sla.Props.C96_dd2tf",
    "Sla.Props.C96_angles",
    "Sla.Props.C96_djcal",
    "Sla.Props.C96_djcal_undefined",
    "Sla.Props.C96_year",
    "Sla.Props.C96_year_overflow"
   ],
   "note": "Floating-point values are exact. The checked models are tied to the exact ones by equality, so C06, C09-C13 and C65 apply to what they return."
  },
  {
   "property": "C97",
   "status": "proved",
   "theorems": [
    "Sla.Props.C97_earth",
    "Sla.Props.C97_ecor"
   ],
   "note": "IEEE binary32 (binary64 for the constants written as double literals), no overflow; the errors of the library's sin and cos are a parameter. fmod is exact. The comparison is with the exact formulas of C67 and C68."
  },
  {
   "property": "C98",
   "status": "proved",
   "theorems": [
    "Sla.Props.C98_moon"
   ],
   "note": "IEEE binary32 (binary64 for the one constant written as a double literal), no overflow; the errors of the library's sin and cos are a parameter. The comparison is with the exact series of C66."
  },
  {
   "property": "C99",
   "status": "proved",
   "theorems": [
    "Sla.Props.C99_ecliptic",
    "Sla.Props.C99_eqecl"
   ],
   "note": "Exact arithmetic. The bound is the motion of the ecliptic (47 arcseconds per century), which the coded matrices contain and a turn about the pole does not."
  },
  {
   "property": "C100",
   "status": "proved",
   "theorems": [
    "Sla.Props.C100_agreement"
   ],
   "note": "Exact arithmetic. The bound is the sum of the neglected terms of both series and of the motion of the ecliptic, each taken at its worst; the actual difference is far smaller."
  },
  {
   "property": "C101",
   "status": "proved",
   "theorems": [
    "Sla.Props.C101_two_columns",
    "Sla.Props.C101_least_squares"
   ],
   "note": "Exact arithmetic apart from the negligibility test, which is any test that accepts numbers below 1e-30 an and none above u an. The defect of C71 (a missing update in the cancellation) does not matter with two columns."
  },
  {
   "property": "C102",
   "status": "proved",
   "theorems": [
    "Sla.Props.C102_galactic",
    "Sla.Props.C102_preces",
    "Sla.Props.C102_ecliptic",
    "Sla.Props.C102_round_trip"
   ],
   "note": "Rounded models of prec, prebn, ecmat, epj, deuler, dcs2c, dmxv, dimxv, dcc2s, dranrm and drange composed as in the source. The library's atan2 is assumed to return numbers of the format. Exact arithmetic is the model of C24, C46 and C58."
  },
  {
   "property": "C103",
   "status": "proved",
   "theorems": [
    "Sla.Props.C103_pda2h",
    "Sla.Props.C103_pdq2h",
    "Sla.Props.C103_pole"
   ],
   "note": "Real arithmetic. C33 is the exact statement outside the bands. Two separate adjusted values may again put the star through the zenith or nadir (latitude and declination both zero, for example), which is why that hour angle is excepted."
  },
  {
   "property": "C104",
   "status": "proved",
   "theorems": [
    "Sla.Props.C104_status",
    "Sla.Props.C104_ds2tp",
    "Sla.Props.C104_limb",
    "Sla.Props.C104_dtp2s",
    "Sla.Props.C104_round_trip"
   ],
   "note": "Overflow is excluded (unbounded exponents above), so plane coordinates whose squares exceed the largest double are outside the reading of the result."
  },
  {
   "property": "C105",
   "status": "proved",
   "theorems": [
    "Sla.Props.C105_rverot",
    "Sla.Props.C105_rv",
    "Sla.Props.C105_airmas",
    "Sla.Props.C105_geoc",
    "Sla.Props.C105_pvobs"
   ],
   "note": "Arguments are the exact values of the floating-point inputs; infinities and NaN are excluded."
  },
  {
   "property": "C106",
   "status": "proved",
   "theorems": [
    "Sla.Props.C106_nutc",
    "Sla.Props.C106_nut",
    "Sla.Props.C106_prenut",
    "Sla.Props.C106_eqeqx"
   ],
   "note": "Arguments are the exact values of the floating-point inputs; infinities and NaN are excluded; fmod is exact, as IEEE 754 requires."
  },
  {
   "property": "C107",
   "status": "proved",
   "theorems": [
    "Sla.Props.C107_etrms",
    "Sla.Props.C107_directions",
    "Sla.Props.C107_round_trip",
    "Sla.Props.C107_galactic",
    "Sla.Props.C107_pm"
   ],
   "note": "Arguments are the exact values of the floating-point inputs; infinities and NaN are excluded."
  },
  {
   "property": "C108",
   "status": "proved",
   "theorems": [
    "Sla.Props.C108_dmoon",
    "Sla.Props.C108_orbit",
    "Sla.Props.C108_moon"
   ],
   "note": "Arguments are the exact values of the floating-point inputs; infinities and NaN are excluded."
  },
  {
   "property": "C109",
   "status": "proved",
   "theorems": [
    "Sla.Props.C109_epv",
    "Sla.Props.C109_orbit",
    "Sla.Props.C109_earth"
   ],
   "note": "Arguments are the exact values of the floating-point inputs; infinities and NaN are excluded. The precession applied to the Earth of earth is the exact one."
  },
  {
   "property": "C110",
   "status": "proved",
   "theorems": [
    "Sla.Props.C110_evp_date",
    "Sla.Props.C110_evp_equinox",
    "Sla.Props.C110_distance",
    "Sla.Props.C110_epv",
    "Sla.Props.C110_earth"
   ],
   "note": "Arguments are the exact values of the floating-point inputs; infinities and NaN are excluded."
  },
  {
   "property": "C111",
   "status": "proved",
   "theorems": [
    "Sla.Props.C111_nutc80",
    "Sla.Props.C111_agreement",
    "Sla.Props.C111_bounded"
   ],
   "note": "Arguments are the exact values of the floating-point inputs; infinities and NaN are excluded."
  },
  {
   "property": "C112",
   "status": "proved",
   "theorems": [
    "Sla.Props.C112_precl",
    "Sla.Props.C112_vectors",
    "Sla.Props.C112_there_and_back"
   ],
   "note": "Arguments are the exact values of the floating-point inputs; infinities and NaN are excluded."
  },
  {
   "property": "C113",
   "status": "proved",
   "theorems": [
    "Sla.Props.C113_rcc",
    "Sla.Props.C113_whole_days",
    "Sla.Props.C113_topocentric",
    "Sla.Props.C113_annual"
   ],
   "note": "Arguments are the exact values of the floating-point inputs; infinities and NaN are excluded."
  },
  {
   "property": "C114",
   "status": "proved",
   "theorems": [
    "Sla.Props.C114_dav2m",
    "Sla.Props.C114_dm2av",
    "Sla.Props.C114_round_trip",
    "Sla.Props.C114_moderate"
   ],
   "note": "Arguments are the exact values of the floating-point inputs; infinities and NaN are excluded."
  },
  {
   "property": "C115",
   "status": "proved",
   "theorems": [
    "Sla.Props.C115_pcd",
    "Sla.Props.C115_unpcd_collapse"
   ],
   "note": "C115_unpcd_collapse is a defect. Arguments are the exact values of the floating-point inputs; infinities and NaN are excluded."
  },
  {
   "property": "C116",
   "status": "proved",
   "theorems": [
    "Sla.Props.C116_status",
    "Sla.Props.C116_false_singular",
    "Sla.Props.C116_accuracy",
    "Sla.Props.C116_xy2xy"
   ],
   "note": "Arguments are the exact values of the floating-point inputs; infinities and NaN are excluded."
  },
  {
   "property": "C117",
   "status": "proved",
   "theorems": [
    "Sla.Props.C117_unpcd"
   ],
   "note": "Arguments are the exact values of the floating-point inputs; infinities and NaN are excluded. For much smaller positive coefficients see C115_unpcd_collapse."
  },
  {
   "property": "C118",
   "status": "proved",
   "theorems": [
    "Sla.Props.C118_safe",
    "Sla.Props.C118_workspace",
    "Sla.Props.C118_zero_column",
    "Sla.Props.C118_zero_row",
    "Sla.Props.C118_diagonal",
    "Sla.Props.C118_equal_rows_missed",
    "Sla.Props.C118_equal_rows_missed_single"
   ],
   "note": "Elements are the exact values of the floating-point inputs; infinities and NaN are excluded. C118_equal_rows_missed and C118_equal_rows_missed_single prove that detection of singularity fails for a matrix with equal rows."
  },
  {
   "property": "C119",
   "status": "proved",
   "theorems": [
    "Sla.Props.C119_refz",
    "Sla.Props.C119_inverts",
    "Sla.Props.C119_refv"
   ],
   "note": "Inputs are the exact values of the floating-point arguments; infinities and NaN are excluded. The comparison is with the exact-arithmetic model, including its clamps and its switch at 83 degrees, whose rounded threshold differs from the exact one."
  },
  {
   "property": "C120",
   "status": "proved",
   "theorems": [
    "Sla.Props.C120_optical",
    "Sla.Props.C120_radio",
    "Sla.Props.C120_vacuum"
   ],
   "note": "Inputs are the exact values of the floating-point arguments; infinities and NaN are excluded. The comparison is with the exact-arithmetic model of the same formulae, not with the physics."
  },
  {
   "property": "C121",
   "status": "proved",
   "theorems": [
    "Sla.Props.C121_dat",
    "Sla.Props.C121_dtt",
    "Sla.Props.C121_dt",
    "Sla.Props.C121_epco",
    "Sla.Props.C121_epco_round_trip"
   ],
   "note": "Inputs are the exact values of the floating-point arguments; infinities and NaN are excluded."
  },
  {
   "property": "C122",
   "status": "proved",
   "theorems": [
    "Sla.Props.C122_dtp2v",
    "Sla.Props.C122_dv2tp",
    "Sla.Props.C122_round_trip_double",
    "Sla.Props.C122_tp2v",
    "Sla.Props.C122_v2tp",
    "Sla.Props.C122_round_trip_single"
   ],
   "note": "Inputs are the exact values of the floating-point arguments; infinities and NaN are excluded."
  },
  {
   "property": "C123",
   "status": "proved",
   "theorems": [
    "Sla.Props.C123_dc62s",
    "Sla.Props.C123_cc62s",
    "Sla.Props.C123_axis",
    "Sla.Props.C123_null",
    "Sla.Props.C123_underflow"
   ],
   "note": "Inputs are the exact values of the floating-point arguments; infinities and NaN are excluded. The longitude is not bounded on the negative x axis, where the sign of a zero (not modelled) decides between pi and -pi. C123_underflow is the witness that the lower bound on the position is needed."
  },
  {
   "property": "C124",
   "status": "proved",
   "theorems": [
    "Sla.Props.C124_dpav",
    "Sla.Props.C124_pav",
    "Sla.Props.C124_pole"
   ],
   "note": "Inputs are the exact values of the floating-point arguments; infinities, NaN and overflow of the second vector are excluded."
  },
  {
   "property": "C125",
   "status": "proved",
   "theorems": [
    "Sla.Props.C125_polmo"
   ],
   "note": "Inputs are the exact values of the floating-point arguments; infinities and NaN are excluded. Sites within 0.57 degrees of the true pole are not covered."
  },
  {
   "property": "C126",
   "status": "proved",
   "theorems": [
    "Sla.Props.C126_position",
    "Sla.Props.C126_rates",
    "Sla.Props.C126_pangle",
    "Sla.Props.C126_divisors",
    "Sla.Props.C126_zenith"
   ],
   "note": "Inputs are the exact values of the floating-point arguments; infinities and NaN are excluded. Between sin d = 1e-9 and the clamp at 1e-15 only the bounds on the size of the rates are proved."
  },
  {
   "property": "C127",
   "status": "proved",
   "theorems": [
    "Sla.Props.C127_dtps2c",
    "Sla.Props.C127_none"
   ],
   "note": "Inputs are the exact values of the floating-point arguments; infinities and NaN are excluded. For r below 1e-6, where the solutions merge, nothing is claimed."
  },
  {
   "property": "C128",
   "status": "proved",
   "theorems": [
    "Sla.Props.C128_pxy",
    "Sla.Props.C128_exact"
   ],
   "note": "Inputs are the exact values of the floating-point arguments; overflow, infinities and NaN are excluded. The arrays are taken not to overlap."
  },
  {
   "property": "C129",
   "status": "proved",
   "theorems": [
    "Sla.Props.C129_optical",
    "Sla.Props.C129_radio",
    "Sla.Props.C129_same"
   ],
   "note": "Inputs are the exact values of the floating-point arguments; infinities and NaN are excluded. Between 0.1 and 0.11 micrometres and outside ordinary weather only the exact returns are proved."
  },
  {
   "property": "C130",
   "status": "proved",
   "theorems": [
    "Sla.Props.C130_dtpv2c",
    "Sla.Props.C130_none"
   ],
   "note": "Inputs are the exact values of the floating-point arguments; infinities and NaN are excluded. For r below 1e-4, where the solutions merge, nothing is claimed. The vector need not be of unit length: the comparison is with the exact routine on the same input."
  },
  {
   "property": "C131",
   "status": "proved",
   "theorems": [
    "Sla.Props.C131_av2m",
    "Sla.Props.C131_m2av",
    "Sla.Props.C131_round_trip"
   ],
   "note": "Arguments are the exact values of the floating-point inputs; infinities and NaN are excluded."
  },
  {
   "property": "C132",
   "status": "proved",
   "theorems": [
    "Sla.Props.C132_status",
    "Sla.Props.C132_s2tp",
    "Sla.Props.C132_tp2s"
   ],
   "note": "Arguments are the exact values of the floating-point inputs; overflow, infinities and NaN are excluded. The error of the cosine of the distance exceeds the threshold 1e-6 of the routine, so within 3.4e-6 of the limb nothing is claimed of the status."
  },
  {
   "property": "C133",
   "status": "proved",
   "theorems": [
    "Sla.Props.C133_tps2c",
    "Sla.Props.C133_none"
   ],
   "note": "Inputs are the exact values of the floating-point arguments; infinities and NaN are excluded. For r below 0.01, where the solutions merge, nothing is claimed."
  },
  {
   "property": "C134",
   "status": "proved",
   "theorems": [
    "Sla.Props.C134_tpv2c",
    "Sla.Props.C134_none"
   ],
   "note": "Inputs are the exact values of the floating-point arguments; infinities and NaN are excluded. For r below 0.12, where the solutions merge, nothing is claimed about them in single precision."
  },
  {
   "property": "C135",
   "status": "proved",
   "theorems": [
    "Sla.Props.C135_pair",
    "Sla.Props.C135_bounded",
    "Sla.Props.C135_nan"
   ],
   "note": "The engine and generate_canonical are not modelled: the uniforms are an arbitrary stream of numbers of type float. Overflow is not modelled (standard deviations below 1e37 cannot cause it). A relative error for a product that underflows is replaced by 1e-40."
  },
  {
   "property": "C136",
   "status": "proved",
   "theorems": [
    "Sla.Props.C136_seed",
    "Sla.Props.C136_near"
   ],
   "note": "The seed argument is the exact value of the float; infinities and NaN are excluded (for an infinite argument the conversion to int is undefined). The power of ten has an integer exponent and is therefore of type double."
  },
  {
   "property": "C137",
   "status": "proved",
   "theorems": [
    "Sla.Props.C137_pda2h",
    "Sla.Props.C137_pdq2h",
    "Sla.Props.C137_defined"
   ],
   "note": "The bound is on the residual of the equation, not on the hour angle, which is ill-conditioned where the two solutions merge. The no-solution clause assumes that the cosine of the declination (pda2h) or of the latitude (pdq2h) is not negative. The NaN outcome is separate in the model; it is excluded for latitudes and declinations up to a right angle in magnitude, and whether it is reachable beyond that is not settled. The flags are not characterised where the product of hour angle and angle is non-zero, of the rejected sign and below 1e-190. C137 does not say that the two solutions differ, nor that a solution is reported whenever one exists: that is only bounded through the residual."
  },
  {
   "property": "C138",
   "status": "proved",
   "theorems": [
    "Sla.Props.C138_refco"
   ],
   "note": "The arithmetic of refro is not modelled here: its value at a zenith distance is a parameter. Overflow is not modelled. Unlike the model over the reals (C53), the sample zenith distances are the constants of the code."
  },
  {
   "property": "C139",
   "status": "proved",
   "theorems": [
    "Sla.Props.C139_dcmpf"
   ],
   "note": "The whole function is modelled with the rounding of every operation; no error bound is claimed for the orientation and the zero points, which are ill-conditioned near singular models. The bounds on the scales include an absolute 2e-90 for squares that underflow. Overflow is not modelled."
  }
 ]
}