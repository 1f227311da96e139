{
 "claims": [
  {
   "property": "C01",
   "status": "proved",
   "theorems": [
    "Ripple.C01_roundtrip_Mc_eta",
    "Ripple.C01_roundtrip_masses"
   ],
   "note": ""
  },
  {
   "property": "C02",
   "status": "proved",
   "theorems": [
    "Ripple.C02_masses_ordered",
    "Ripple.C02_finite_on_domain",
    "Ripple.C02_nan_off_domain"
   ],
   "note": ""
  },
  {
   "property": "C03",
   "status": "proved",
   "theorems": [
    "Ripple.C03_eta_range",
    "Ripple.C03_exchange",
    "Ripple.C03_scaling"
   ],
   "note": ""
  },
  {
   "property": "C04",
   "status": "proved",
   "theorems": [
    "Ripple.C04_lambda_tilde_physical"
   ],
   "note": ""
  },
  {
   "property": "C05",
   "status": "proved",
   "theorems": [
    "Ripple.C05_roundtrip",
    "Ripple.C05_roundtrip_inverse",
    "Ripple.C05_singular",
    "Ripple.C05_regular_of_ratio"
   ],
   "note": "The round trip is proved away from the singular mass ratio; at that ratio non-invertibility is proved (C05_singular)."
  },
  {
   "property": "C06",
   "status": "proved",
   "theorems": [
    "Ripple.C06_from_q_forward",
    "Ripple.C06_from_q_backward"
   ],
   "note": ""
  },
  {
   "property": "C07",
   "status": "proved",
   "theorems": [
    "Ripple.C07_mass_exchange_invariant",
    "Ripple.C07_wrong_if_unordered"
   ],
   "note": "C07_wrong_if_unordered shows the documented precondition m1 >= m2 is needed."
  },
  {
   "property": "C08",
   "status": "proved",
   "theorems": [
    "Ripple.C08_between",
    "Ripple.C08_bounded",
    "Ripple.C08_equal_spins",
    "Ripple.C08_exchange",
    "Ripple.C08_scale",
    "Ripple.C08_weight"
   ],
   "note": ""
  },
  {
   "property": "C09",
   "status": "proved",
   "theorems": [
    "Ripple.C09_formula",
    "Ripple.C09_pos",
    "Ripple.C09_scaling",
    "Ripple.C09_strictAnti",
    "Ripple.C09_three_agree"
   ],
   "note": ""
  },
  {
   "property": "C10",
   "status": "proved",
   "theorems": [
    "Ripple.C10_rows_ordered",
    "Ripple.C10_in_range",
    "Ripple.C10_can_leave_range",
    "Ripple.C10_in_hull"
   ],
   "note": "C10_can_leave_range exhibits that individual masses may leave the requested prior range after ordering."
  },
  {
   "property": "C11",
   "status": "proved",
   "theorems": [
    "Ripple.C11_in_range"
   ],
   "note": ""
  },
  {
   "property": "C12",
   "status": "proved",
   "theorems": [
    "Ripple.C12_overlap_in_unit_interval"
   ],
   "note": ""
  },
  {
   "property": "C13",
   "status": "proved",
   "theorems": [
    "Ripple.C13_overlap_one_iff",
    "Ripple.C13_self_overlap"
   ],
   "note": ""
  },
  {
   "property": "C14",
   "status": "proved",
   "theorems": [
    "Ripple.C14_scale_left",
    "Ripple.C14_scale_right",
    "Ripple.C14_scale_psd",
    "Ripple.C14_exchange",
    "Ripple.C14_time_shift"
   ],
   "note": ""
  },
  {
   "property": "C15",
   "status": "proved",
   "theorems": [
    "Ripple.C15_match_in_unit_interval",
    "Ripple.C15_self_match"
   ],
   "note": ""
  },
  {
   "property": "C16",
   "status": "proved",
   "theorems": [
    "Ripple.C16_match_is_max_over_time"
   ],
   "note": ""
  },
  {
   "property": "C17",
   "status": "proved",
   "theorems": [
    "Ripple.C17_symmetric",
    "Ripple.C17_scale",
    "Ripple.C17_scale_psd",
    "Ripple.C17_pad_split",
    "Ripple.C17_time_shift",
    "Ripple.C17_time_shift_neg",
    "Ripple.C17_time_shift_left"
   ],
   "note": ""
  },
  {
   "property": "C18",
   "status": "proved",
   "theorems": [
    "Ripple.C18_defaults",
    "Ripple.C18_wrappers",
    "Ripple.C18_self"
   ],
   "note": ""
  },
  {
   "property": "C19",
   "status": "proved",
   "theorems": [
    "Ripple.C19_infinite_bins_ignored",
    "Ripple.C19_zero_norm_nan",
    "Ripple.C19_nan_psd"
   ],
   "note": ""
  },
  {
   "property": "C20",
   "status": "proved",
   "theorems": [
    "Ripple.C20_pads",
    "Ripple.C20_padded_length",
    "Ripple.C20_fails_on_shortest_grid"
   ],
   "note": "C20_fails_on_shortest_grid covers the error branch."
  },
  {
   "property": "C21",
   "status": "proved",
   "theorems": [
    "Ripple.C21_inf_below",
    "Ripple.C21_finite_above",
    "Ripple.C21_floor"
   ],
   "note": ""
  },
  {
   "property": "C22",
   "status": "proved",
   "theorems": [
    "Ripple.C22_inf_outside",
    "Ripple.C22_between",
    "Ripple.C22_node",
    "Ripple.C22_finite_positive",
    "Ripple.C22_aLIGO",
    "Ripple.C22_ce",
    "Ripple.C22_et",
    "Ripple.C22_ZDHP",
    "Ripple.C22_O3a"
   ],
   "note": "General theorems over all finite positive tables, plus one theorem per shipped data file (all rows)."
  },
  {
   "property": "C23",
   "status": "proved",
   "theorems": [
    "Ripple.C23_inf_cell_nan",
    "Ripple.C23_O2",
    "Ripple.C23_O2_match_nan"
   ],
   "note": "Sn_O2 yields NaN on [10, 15.0029...) Hz: proved defect, with the consequence for matches."
  },
  {
   "property": "C24",
   "status": "proved",
   "theorems": [
    "Ripple.C24_interpolates",
    "Ripple.C24_unique"
   ],
   "note": ""
  },
  {
   "property": "C25",
   "status": "proved",
   "theorems": [
    "Ripple.C25_peak",
    "Ripple.C25_no_peak",
    "Ripple.C25_peak_physical"
   ],
   "note": ""
  },
  {
   "property": "C26",
   "status": "proved",
   "theorems": [
    "Ripple.C26_radiated_energy",
    "Ripple.C26_ringdown",
    "Ripple.C26_phase_regions_ordered"
   ],
   "note": ""
  },
  {
   "property": "C27",
   "status": "proved",
   "theorems": [
    "Ripple.C27_clamped",
    "Ripple.C27_node",
    "Ripple.C27_range",
    "Ripple.C27_linear_between",
    "Ripple.C27_continuous"
   ],
   "note": ""
  },
  {
   "property": "C28",
   "status": "proved",
   "theorems": [
    "Ripple.C28_phase_C1_physical",
    "Ripple.C28_regions",
    "Ripple.C28_phase_C1"
   ],
   "note": ""
  },
  {
   "property": "C29",
   "status": "proved",
   "theorems": [
    "Ripple.C29_amplitude_C1_physical",
    "Ripple.C29_regions",
    "Ripple.C29_amplitude_C1"
   ],
   "note": ""
  },
  {
   "property": "C30",
   "status": "proved",
   "theorems": [
    "Ripple.C30_no_cut",
    "Ripple.C30_zeroed",
    "Ripple.C30_kept",
    "Ripple.C30_lost_points",
    "Ripple.C30_wraps",
    "Ripple.C30_wraps_when_above",
    "Ripple.C30_phase_dropped",
    "Ripple.C30_wraps_physical",
    "Ripple.C30_zeroed_physical"
   ],
   "note": ""
  },
  {
   "property": "C31",
   "status": "proved",
   "theorems": [
    "Ripple.C31_distance",
    "Ripple.C31_time_phase",
    "Ripple.C31_time_phase_cut",
    "Ripple.C31_modulus",
    "Ripple.C31_time_phase_cut_physical"
   ],
   "note": ""
  },
  {
   "property": "C32",
   "status": "proved",
   "theorems": [
    "Ripple.C32_reference_phase"
   ],
   "note": ""
  },
  {
   "property": "C33",
   "status": "proved",
   "theorems": [
    "Ripple.C33_local",
    "Ripple.C33_not_local",
    "Ripple.C33_not_local_physical"
   ],
   "note": ""
  },
  {
   "property": "C34",
   "status": "proved",
   "theorems": [
    "Ripple.C34_scaling"
   ],
   "note": ""
  },
  {
   "property": "C35",
   "status": "proved",
   "theorems": [
    "Ripple.C35_NRTidalv2",
    "Ripple.C35_D",
    "Ripple.C35_TaylorF2",
    "Ripple.C35_XAS"
   ],
   "note": "D, XAS, TaylorF2 and NRTidalv2 generators."
  },
  {
   "property": "C36",
   "status": "proved",
   "theorems": [
    "Ripple.C36_D",
    "Ripple.C36_XAS"
   ],
   "note": "PhenomD and XAS."
  },
  {
   "property": "C37",
   "status": "proved",
   "theorems": [
    "Ripple.C37_amplitude",
    "Ripple.C37_power_law"
   ],
   "note": ""
  },
  {
   "property": "C38",
   "status": "proved",
   "theorems": [
    "Ripple.C38_time_phase",
    "Ripple.C38_distance",
    "Ripple.C38_reference_phase",
    "Ripple.C38_no_reference"
   ],
   "note": ""
  },
  {
   "property": "C39",
   "status": "proved",
   "theorems": [
    "Ripple.C39_exchange_phasing",
    "Ripple.C39_exchange_strain"
   ],
   "note": ""
  },
  {
   "property": "C40",
   "status": "proved",
   "theorems": [
    "Ripple.C40_coefficients",
    "Ripple.C40_phase",
    "Ripple.C40_nonspinning"
   ],
   "note": ""
  },
  {
   "property": "C41",
   "status": "proved",
   "theorems": [
    "Ripple.C41_inspiral",
    "Ripple.C41_constants",
    "Ripple.C41_low_frequency",
    "Ripple.C41_inspiral_physical"
   ],
   "note": ""
  },
  {
   "property": "C42",
   "status": "proved",
   "theorems": [
    "Ripple.C42_leading",
    "Ripple.C42_linear"
   ],
   "note": ""
  },
  {
   "property": "C43",
   "status": "proved",
   "theorems": [
    "Ripple.C43_kappa",
    "Ripple.C43_kappa_lambda_tilde",
    "Ripple.C43_exchange",
    "Ripple.C43_leading"
   ],
   "note": ""
  },
  {
   "property": "C44",
   "status": "proved",
   "theorems": [
    "Ripple.C44_below",
    "Ripple.C44_above",
    "Ripple.C44_end_point",
    "Ripple.C44_inside",
    "Ripple.C44_finite",
    "Ripple.C44_decreasing",
    "Ripple.C44_limit_start",
    "Ripple.C44_limit_end"
   ],
   "note": ""
  },
  {
   "property": "C45",
   "status": "proved",
   "theorems": [
    "Ripple.C45_derivative",
    "Ripple.C45_rule_y",
    "Ripple.C45_rule_x"
   ],
   "note": ""
  },
  {
   "property": "C46",
   "status": "proved",
   "theorems": [
    "Ripple.C46_no_taper",
    "Ripple.C46_taper",
    "Ripple.C46_spinning",
    "Ripple.C46_spinning_differs",
    "Ripple.C46_spinning_differs_everywhere"
   ],
   "note": ""
  },
  {
   "property": "C47",
   "status": "proved",
   "theorems": [
    "Ripple.C47_quadparam",
    "Ripple.C47_value",
    "Ripple.C47_slope",
    "Ripple.C47_curvature",
    "Ripple.C47_octupole"
   ],
   "note": "The quadrupole parameter is shown >= 1 for every lambda >= 0, not only on [0,1]."
  },
  {
   "property": "C48",
   "status": "proved",
   "theorems": [
    "Ripple.C48_positive",
    "Ripple.C48_decreasing",
    "Ripple.C48_scaling",
    "Ripple.C48_black_hole"
   ],
   "note": ""
  },
  {
   "property": "C49",
   "status": "proved",
   "theorems": [
    "Ripple.C49_NRTidalv2",
    "Ripple.C49_TaylorF2"
   ],
   "note": ""
  },
  {
   "property": "C50",
   "status": "proved",
   "theorems": [
    "Ripple.C50_distance",
    "Ripple.C50_time_phase",
    "Ripple.C50_modulus"
   ],
   "note": ""
  },
  {
   "property": "C51",
   "status": "proved",
   "theorems": [
    "Ripple.C51_plus",
    "Ripple.C51_cross",
    "Ripple.C51_hrss"
   ],
   "note": ""
  },
  {
   "property": "C52",
   "status": "proved",
   "theorems": [
    "Ripple.C52_ellipse",
    "Ripple.C52_circular",
    "Ripple.C52_linear",
    "Ripple.C52_linear_cross"
   ],
   "note": ""
  },
  {
   "property": "C53",
   "status": "proved",
   "theorems": [
    "Ripple.C53_pointwise",
    "Ripple.C53_envelope",
    "Ripple.C53_linear",
    "Ripple.C53_half_turn",
    "Ripple.C53_parity"
   ],
   "note": ""
  },
  {
   "property": "C54",
   "status": "proved",
   "theorems": [
    "Ripple.C54_rotations",
    "Ripple.C54_sense",
    "Ripple.C54_additive",
    "Ripple.C54_inverse",
    "Ripple.C54_length"
   ],
   "note": ""
  },
  {
   "property": "C55",
   "status": "proved",
   "theorems": [
    "Ripple.C55_half_angle",
    "Ripple.C55_unit",
    "Ripple.C55_no_precession"
   ],
   "note": ""
  },
  {
   "property": "C56",
   "status": "proved",
   "theorems": [
    "Ripple.C56_value",
    "Ripple.C56_bad_order",
    "Ripple.C56_unsupported",
    "Ripple.C56_sum",
    "Ripple.C56_reflection"
   ],
   "note": ""
  },
  {
   "property": "C57",
   "status": "proved",
   "theorems": [
    "Ripple.C57_value",
    "Ripple.C57_range",
    "Ripple.C57_zero_iff",
    "Ripple.C57_rotation"
   ],
   "note": ""
  },
  {
   "property": "C58",
   "status": "proved",
   "theorems": [
    "Ripple.C58_frame",
    "Ripple.C58_angle",
    "Ripple.C58_triangle"
   ],
   "note": ""
  },
  {
   "property": "C59",
   "status": "proved",
   "theorems": [
    "Ripple.C59_moduli",
    "Ripple.C59_waveform"
   ],
   "note": ""
  },
  {
   "property": "C60",
   "status": "proved",
   "theorems": [
    "Ripple.C60_power",
    "Ripple.C60_distance"
   ],
   "note": ""
  },
  {
   "property": "C61",
   "status": "proved",
   "theorems": [
    "Ripple.C61_masses",
    "Ripple.C61_short",
    "Ripple.C61_count"
   ],
   "note": ""
  },
  {
   "property": "C62",
   "status": "proved",
   "theorems": [
    "Ripple.C62_phase_C1",
    "Ripple.C62_phase_C1_physical",
    "Ripple.C62_phase_C1_generator"
   ],
   "note": ""
  },
  {
   "property": "C63",
   "status": "proved",
   "theorems": [
    "Ripple.C63_amplitude_C1"
   ],
   "note": ""
  },
  {
   "property": "C64",
   "status": "proved",
   "theorems": [
    "Ripple.C64_amp_polynomial",
    "Ripple.C64_amp_midpoint",
    "Ripple.C64_amp_inspiral",
    "Ripple.C64_amp_ringdown",
    "Ripple.C64_amp_peak",
    "Ripple.C64_amp_no_peak",
    "Ripple.C64_phase_values",
    "Ripple.C64_amp_values",
    "Ripple.C64_phase_intermediate",
    "Ripple.C64_phase_no_slope_correction",
    "Ripple.C64_phase_inspiral",
    "Ripple.C64_phase_ringdown",
    "Ripple.C64_phase_nodes",
    "Ripple.C64_physical",
    "Ripple.C64_phase_ringdown_physical"
   ],
   "note": ""
  },
  {
   "property": "C65",
   "status": "proved",
   "theorems": [
    "Ripple.C65_local",
    "Ripple.C65_zero",
    "Ripple.C65_nonzero",
    "Ripple.C65_zero_physical"
   ],
   "note": ""
  },
  {
   "property": "C66",
   "status": "proved",
   "theorems": [
    "Ripple.C66_distance",
    "Ripple.C66_time_phase",
    "Ripple.C66_opposite_to_D",
    "Ripple.C66_modulus"
   ],
   "note": ""
  },
  {
   "property": "C67",
   "status": "proved",
   "theorems": [
    "Ripple.C67_reference_phase"
   ],
   "note": ""
  },
  {
   "property": "C68",
   "status": "proved",
   "theorems": [
    "Ripple.C68_coefficients",
    "Ripple.C68_three_and_a_half",
    "Ripple.C68_phase",
    "Ripple.C68_phase_physical"
   ],
   "note": ""
  },
  {
   "property": "C69",
   "status": "proved",
   "theorems": [
    "Ripple.C69_amplitude_2PN",
    "Ripple.C69_amplitude_nonspinning",
    "Ripple.C69_amplitude_difference"
   ],
   "note": ""
  },
  {
   "property": "C70",
   "status": "proved",
   "theorems": [
    "Ripple.C70_scaling"
   ],
   "note": ""
  },
  {
   "property": "C71",
   "status": "proved",
   "theorems": [
    "Ripple.C71_kerr",
    "Ripple.C71_kerr_unique",
    "Ripple.C71_range",
    "Ripple.C71_special_values",
    "Ripple.C71_strictAnti",
    "Ripple.C71_guard_inactive",
    "Ripple.C71_frequency",
    "Ripple.C71_frequency_range",
    "Ripple.C71_frequency_strictMono"
   ],
   "note": ""
  },
  {
   "property": "C72",
   "status": "proved",
   "theorems": [
    "Ripple.C72_dispatch",
    "Ripple.C72_unknown",
    "Ripple.C72_total"
   ],
   "note": ""
  },
  {
   "property": "C73",
   "status": "proved",
   "theorems": [
    "Ripple.C73_length",
    "Ripple.C73_component_masses",
    "Ripple.C73_never_fixed"
   ],
   "note": ""
  },
  {
   "property": "C74",
   "status": "proved",
   "theorems": [
    "Ripple.C74_amplitude_regions_ordered"
   ],
   "note": ""
  },
  {
   "property": "C75",
   "status": "proved",
   "theorems": [
    "Ripple.C75_strain",
    "Ripple.C75_black_holes"
   ],
   "note": ""
  },
  {
   "property": "C76",
   "status": "proved",
   "theorems": [
    "Ripple.C76_taper_zero",
    "Ripple.C76_taper_below_cutoff",
    "Ripple.C76_no_taper",
    "Ripple.C76_no_taper_physical"
   ],
   "note": ""
  },
  {
   "property": "C77",
   "status": "proved",
   "theorems": [
    "Ripple.C77_NRTidalv2",
    "Ripple.C77_TaylorF2"
   ],
   "note": ""
  },
  {
   "property": "C78",
   "status": "proved",
   "theorems": [
    "Ripple.C78_continuous",
    "Ripple.C78_amplitude_continuous",
    "Ripple.C78_bounded",
    "Ripple.C78_sign",
    "Ripple.C78_sign_flips",
    "Ripple.C78_amplitude_sign"
   ],
   "note": ""
  },
  {
   "property": "C79",
   "status": "proved",
   "theorems": [
    "Ripple.C79_quadrupole"
   ],
   "note": ""
  },
  {
   "property": "C80",
   "status": "proved",
   "theorems": [
    "Ripple.C80_equal_mass"
   ],
   "note": "The 7PN coefficients of the two models really differ; both are identified exactly."
  },
  {
   "property": "C81",
   "status": "proved",
   "theorems": [
    "Ripple.C81_circular"
   ],
   "note": ""
  },
  {
   "property": "C82",
   "status": "proved",
   "theorems": [
    "Ripple.C82_reference",
    "Ripple.C82_reference_waveform"
   ],
   "note": ""
  },
  {
   "property": "C83",
   "status": "proved",
   "theorems": [
    "Ripple.C83_first_law",
    "Ripple.C83_newtonian"
   ],
   "note": ""
  },
  {
   "property": "C84",
   "status": "proved",
   "theorems": [
    "Ripple.C84_leading",
    "Ripple.C84_spin_orbit",
    "Ripple.C84_alpha_epsilon",
    "Ripple.C84_chip"
   ],
   "note": ""
  },
  {
   "property": "C85",
   "status": "proved",
   "theorems": [
    "Ripple.C85_covariance"
   ],
   "note": ""
  },
  {
   "property": "C86",
   "status": "proved",
   "theorems": [
    "Ripple.C86_phase_ignored"
   ],
   "note": ""
  },
  {
   "property": "C87",
   "status": "proved",
   "theorems": [
    "Ripple.C87_time_shift",
    "Ripple.C87_seconds"
   ],
   "note": ""
  },
  {
   "property": "C88",
   "status": "proved",
   "theorems": [
    "Ripple.C88_scaling"
   ],
   "note": ""
  },
  {
   "property": "C89",
   "status": "proved",
   "theorems": [
    "Ripple.C89_warnings"
   ],
   "note": ""
  },
  {
   "property": "C90",
   "status": "proved",
   "theorems": [
    "Ripple.C90_never_zero",
    "Ripple.C90_zero_left",
    "Ripple.C90_zero_right"
   ],
   "note": ""
  },
  {
   "property": "C91",
   "status": "proved",
   "theorems": [
    "Ripple.C91_remnant"
   ],
   "note": ""
  },
  {
   "property": "C92",
   "status": "proved",
   "theorems": [
    "Ripple.C92_regions_ordered"
   ],
   "note": ""
  },
  {
   "property": "C93",
   "status": "proved",
   "theorems": [
    "Ripple.C93_tables",
    "Ripple.C93_lookup",
    "Ripple.C93_published",
    "Ripple.C93_increasing",
    "Ripple.C93_range",
    "Ripple.C93_shipped"
   ],
   "note": "scipy's not-a-knot CubicSpline (tridiagonal slope system, Hermite pieces) is modelled for the actual 1003 rows; the linear system is proved regular and its solution enclosed by a checked certificate (decide +kernel over all rows)."
  },
  {
   "property": "C94",
   "status": "proved",
   "theorems": [
    "Ripple.C94_spin_range",
    "Ripple.C94_spin_increasing",
    "Ripple.C94_ringdown"
   ],
   "note": "The lookup tolerance 4e-5 is the Lipschitz bound times the sampling step."
  },
  {
   "property": "C95",
   "status": "proved",
   "theorems": [
    "Ripple.C95_spin_range",
    "Ripple.C95_spin_value",
    "Ripple.C95_ringdown"
   ],
   "note": "The bound is proved with a kernel-checked interval subdivision of the whole parameter box."
  },
  {
   "property": "C96",
   "status": "proved",
   "theorems": [
    "Ripple.C96_regions_ordered",
    "Ripple.C96_smooth",
    "Ripple.C96_zeroed",
    "Ripple.C96_wraps"
   ],
   "note": ""
  },
  {
   "property": "C97",
   "status": "proved",
   "theorems": [
    "Ripple.C97_splines",
    "Ripple.C97_lookup"
   ],
   "note": ""
  },
  {
   "property": "C98",
   "status": "proved",
   "theorems": [
    "Ripple.C98_remnants",
    "Ripple.C98_ringdown"
   ],
   "note": ""
  },
  {
   "property": "C99",
   "status": "proved",
   "theorems": [
    "Ripple.C99_amplitude_positive_nonspinning",
    "Ripple.C99_amplitude_C1_nonspinning",
    "Ripple.C99_strain_nonzero_nonspinning",
    "Ripple.C99_amplitude_positive_spinning",
    "Ripple.C99_amplitude_C1_spinning",
    "Ripple.C99_strain_nonzero_spinning",
    "Ripple.C99_amplitude_unbounded_extreme",
    "Ripple.C99_strain_unbounded_extreme"
   ],
   "note": ""
  },
  {
   "property": "C100",
   "status": "proved",
   "theorems": [
    "Ripple.C100_spinning_D",
    "Ripple.C100_nonspinning_D",
    "Ripple.C100_spin_orbit_D",
    "Ripple.C100_spinning_XAS",
    "Ripple.C100_nonspinning_XAS",
    "Ripple.C100_spin_orbit_XAS",
    "Ripple.C100_spin_squared_D",
    "Ripple.C100_spin_squared_XAS",
    "Ripple.C100_leading_order",
    "Ripple.C100_test_mass_D",
    "Ripple.C100_test_mass_XAS",
    "Ripple.C100_equal_mass"
   ],
   "note": ""
  },
  {
   "property": "C101",
   "status": "proved",
   "theorems": [
    "Ripple.C101_amplitude_positive",
    "Ripple.C101_strain_nonzero",
    "Ripple.C101_strain_nonzero_cut",
    "Ripple.C101_amplitude_zero_extreme",
    "Ripple.C101_strain_zero_extreme"
   ],
   "note": ""
  },
  {
   "property": "C102",
   "status": "proved",
   "theorems": [
    "Ripple.C102_fits_unique",
    "Ripple.C102_slopes"
   ],
   "note": ""
  },
  {
   "property": "C103",
   "status": "proved",
   "theorems": [
    "Ripple.C103_phase",
    "Ripple.C103_amplitude",
    "Ripple.C103_amplitude_nonspinning",
    "Ripple.C103_strain",
    "Ripple.C103_strain_nonspinning",
    "Ripple.C103_polarisations",
    "Ripple.C103_masses_not_differentiable_at_equal_mass"
   ],
   "note": ""
  },
  {
   "property": "C104",
   "status": "proved",
   "theorems": [
    "Ripple.C104_phase",
    "Ripple.C104_amplitude",
    "Ripple.C104_strain_general",
    "Ripple.C104_strain",
    "Ripple.C104_polarisations",
    "Ripple.C104_kink"
   ],
   "note": ""
  },
  {
   "property": "C105",
   "status": "proved",
   "theorems": [
    "Ripple.C105_TaylorF2",
    "Ripple.C105_TaylorF2_polarisations",
    "Ripple.C105_taper",
    "Ripple.C105_taper_end",
    "Ripple.C105_NRTidalv2_general",
    "Ripple.C105_NRTidalv2",
    "Ripple.C105_NRTidalv2_polarisations"
   ],
   "note": ""
  },
  {
   "property": "C106",
   "status": "proved",
   "theorems": [
    "Ripple.C106_fold",
    "Ripple.C106_smooth",
    "Ripple.C106_kink",
    "Ripple.C106_in_band"
   ],
   "note": ""
  },
  {
   "property": "C107",
   "status": "proved",
   "theorems": [
    "Ripple.C107_reverse_mode",
    "Ripple.C107_masses",
    "Ripple.C107_equal_mass_nan",
    "Ripple.C107_equal_mass_smooth",
    "Ripple.C107_total_mass",
    "Ripple.C107_ringdown",
    "Ripple.C107_ringdown_nan",
    "Ripple.C107_ringdown_smooth"
   ],
   "note": "The reverse-mode rules of the jax.lax primitives used are modelled (trusted base); in the ringdown program the ringdown and damping frequency and the three fits enter as single primitives with their exact partial derivatives."
  },
  {
   "property": "C108",
   "status": "proved",
   "theorems": [
    "Ripple.C108_generic",
    "Ripple.C108_aligned_nan",
    "Ripple.C108_aligned_smooth",
    "Ripple.C108_in_plane_nan",
    "Ripple.C108_in_plane_smooth"
   ],
   "note": "The whole of convert_spins is modelled as a traced program of 247 operations and proved to compute the values of the direct model; nothing in it is collapsed."
  },
  {
   "property": "C109",
   "status": "proved",
   "theorems": [
    "Ripple.C109_masses",
    "Ripple.C109_above_quarter",
    "Ripple.C109_equal_masses",
    "Ripple.C109_chirp_mass",
    "Ripple.C109_round_trip",
    "Ripple.C109_neighbours_nan",
    "Ripple.C109_tides",
    "Ripple.C109_waveform_nan"
   ],
   "note": "Floating-point model of Prelude/Fp.lean: correct rounding of + - * / sqrt, overflow, flushing or subnormals; no contraction into fused operations, no flushing of inputs, pow by its error bound. The single-precision witness of C109_waveform_nan is one pair of masses; the statement it refutes is the universal one."
  },
  {
   "property": "C110",
   "status": "proved",
   "theorems": [
    "Ripple.C110_aLIGO",
    "Ripple.C110_ce",
    "Ripple.C110_et",
    "Ripple.C110_aLIGOZeroDetHighPower",
    "Ripple.C110_O2",
    "Ripple.C110_O3a"
   ],
   "note": "Floating-point layer as for C109; np.loadtxt, the square and the replacement of zeros in double precision, conversion to single precision by numpy (gradual underflow), jnp.interp with every operation rounded. Whole tables are checked in the kernel."
  },
  {
   "property": "C111",
   "status": "proved",
   "theorems": [
    "Ripple.C111_zero_noise",
    "Ripple.C111_shipped",
    "Ripple.C111_underflow",
    "Ripple.C111_flush"
   ],
   "note": "Floating-point layer as for C109; summation in any order; what is assumed of the modulus, complex division and FFT is in Model/RoundedMatch.lean (structure Lib), with an instance."
  },
  {
   "property": "C112",
   "status": "proved",
   "theorems": [
    "Ripple.C112_overlap",
    "Ripple.C112_match",
    "Ripple.C112_self",
    "Ripple.C112_le_one",
    "Ripple.C112_double"
   ],
   "note": "Floating-point layer as for C109 and C111; the accuracy asked of the library is in Spec/RoundedMatch.lean, with an instance."
  },
  {
   "property": "C113",
   "status": "proved",
   "theorems": [
    "Ripple.C113_aLIGO",
    "Ripple.C113_ce",
    "Ripple.C113_et",
    "Ripple.C113_aLIGOZeroDetHighPower",
    "Ripple.C113_O3a",
    "Ripple.C113_O2",
    "Ripple.C113_outside"
   ],
   "note": "Floating-point layer as for C110. The ratio of neighbouring values and the relative distance of neighbouring frequencies are checked in the kernel for the whole tables."
  },
  {
   "property": "C114",
   "status": "proved",
   "theorems": [
    "Ripple.C114_below",
    "Ripple.C114_flushed",
    "Ripple.C114_nan",
    "Ripple.C114_subnormal",
    "Ripple.C114_double"
   ],
   "note": "Floating-point layer as for C110. The two powers are parameters with a stated error (integer_pow and pow of XLA are not fixed); an instance with correctly rounded powers is given. The frequency need not be a floating-point number."
  },
  {
   "property": "C115",
   "status": "proved",
   "theorems": [
    "Ripple.C115_plus",
    "Ripple.C115_cross",
    "Ripple.C115_linear"
   ],
   "note": "The grid is shifted by the arrival time in the statement; the code takes the times as given."
  },
  {
   "property": "C116",
   "status": "proved",
   "theorems": [
    "Ripple.C116_masses",
    "Ripple.C116_chirp_mass"
   ],
   "note": "General position is a structure of eleven conditions (GeneralPosition), met by a 30+20 binary with a tilted spin. f_ref is held fixed."
  },
  {
   "property": "C117",
   "status": "proved",
   "theorems": [
    "Ripple.C117_ringdown",
    "Ripple.C117_waveform"
   ],
   "note": "A defect of the model as coded, proved for the shipped tables. The sign of zero: copysign of +0 is modelled as +1 (the value at the jump itself); the one-sided limit does not depend on it."
  },
  {
   "property": "C118",
   "status": "proved",
   "theorems": [
    "Ripple.C118_discontinuous",
    "Ripple.C118_limit",
    "Ripple.C118_continuous_iff",
    "Ripple.C118_jump"
   ],
   "note": "A defect of the model as coded: with the total angular momentum along the orbital one both arguments of two arctan2 are zero, and the reference phase is lost. The sign of floating-point zeros does not matter here: alpha0 would become 0 or 180 degrees and enters doubled. C118_continuous_iff and C118_limit ask for L+S > 0 at the reference frequency; C118_jump proves it for the stated range; for L+S < 0 only C118_discontinuous is proved."
  },
  {
   "property": "C119",
   "status": "proved",
   "theorems": [
    "Ripple.C119_phenomD",
    "Ripple.C119_Pv2",
    "Ripple.C119_early",
    "Ripple.C119_generators_equal_mass",
    "Ripple.C119_generators_spinning"
   ],
   "note": "Arrival is defined as the group delay -Im(h'/h)/(2 pi) of the spectrum (Spec/Arrival.lean; Arrives.delay shows that delaying a spectrum by s seconds adds s). The slopes of the pieces are written out there and proved to be the derivatives of the model's pieces. General statements hold for every table of the shipped shape; the numbers for the shipped table through C97. The three numerical theorems are for all total masses, at two choices of mass ratio and spins."
  },
  {
   "property": "C120",
   "status": "proved",
   "theorems": [
    "Ripple.C120_XAS",
    "Ripple.C120_XAS_nonspinning"
   ],
   "note": "The fitted delay is restated in Spec/ArrivalX.lean (peakDelay) and bounded for every physical binary by interval arithmetic on sixteen ranges of the symmetric mass ratio. The arrival needs a non-zero differentiable amplitude, which C99 gives for mass ratios up to 20 with any aligned spins and for every mass ratio without spins."
  },
  {
   "property": "C121",
   "status": "proved",
   "theorems": [
    "Ripple.C121_TaylorF2",
    "Ripple.C121_phenomD",
    "Ripple.C121_XAS",
    "Ripple.C121_Pv2",
    "Ripple.C121_NRTidalv2"
   ],
   "note": "Spec/Chirp.lean states the time to coalescence: the quadrupole formula in terms of the chirp mass (Chirps), with the first post-Newtonian correction (ChirpsPN) and with the spin-orbit and tail correction (ChirpsSO, textbook spin-orbit parameter). Chirps.unique, ChirpsPN.unique and ChirpsSO.unique (Props/Identify.lean) show that a spectrum satisfies them for one set of parameters only. The whole phase of each generator is the textbook phase (C40, C68, C75) plus terms smaller by at least four powers of v. For PhenomPv2 the plus polarisation of aligned binaries; precessing binaries are not covered."
  },
  {
   "property": "C122",
   "status": "proved",
   "theorems": [
    "Ripple.C122_newtonian",
    "Ripple.C122_low_frequencies",
    "Ripple.C122_distance",
    "Ripple.C122_spins",
    "Ripple.C122_distance_TaylorF2"
   ],
   "note": "ShiftedLow is the equality at low frequencies up to a time shift and a phase; an example exhibits two different parameter sets that satisfy it. Uses C121 for masses and spins and the series of C100 for the modulus; for NRTidalv2 the tidal amplitude vanishes at low frequency and the taper is one. PhenomPv2 is not covered."
  }
 ]
}