{
 "claims": [
  {
   "property": "C01",
   "status": "proved",
   "theorems": [
    "C01_recognised_keys_accepted",
    "C01_unknown_key_rejected",
    "C01_copy_with_accepts_iff"
   ],
   "note": ""
  },
  {
   "property": "C02",
   "status": "proved",
   "theorems": [
    "C02_copy_with_overrides",
    "C02_copy_is_independent"
   ],
   "note": ""
  },
  {
   "property": "C03",
   "status": "proved",
   "theorems": [
    "C03_attr_eq_item",
    "C03_present",
    "C03_missing"
   ],
   "note": ""
  },
  {
   "property": "C04",
   "status": "proved",
   "theorems": [
    "C04_only_declared_parameters_matter",
    "C04_extra_keys_ignored",
    "C04_scenario_keys"
   ],
   "note": ""
  },
  {
   "property": "C05",
   "status": "proved",
   "theorems": [
    "C05_check_error_iff",
    "C05_missing_required_fails",
    "C05_checks_pass"
   ],
   "note": ""
  },
  {
   "property": "C06",
   "status": "proved",
   "theorems": [
    "C06_number_kept",
    "C06_inside_silent",
    "C06_nan_silent",
    "C06_default",
    "C06_limits_never_reject"
   ],
   "note": ""
  },
  {
   "property": "C07",
   "status": "proved",
   "theorems": [
    "C07_option_kept",
    "C07_other_becomes_default",
    "C07_required_unknown_is_none",
    "C07_missing",
    "C07_result",
    "C07_one_is_true"
   ],
   "note": ""
  },
  {
   "property": "C08",
   "status": "proved",
   "theorems": [
    "C08_scenarios_change_only_by_direct_assignment",
    "C08_predictions_never_change",
    "C08_model_owns_its_scenario",
    "C08_failed_construction_adds_no_model",
    "C08_model_isolated_from_later_edits"
   ],
   "note": ""
  },
  {
   "property": "C09",
   "status": "proved",
   "theorems": [
    "C09_tables",
    "C09_results",
    "C09_arguments"
   ],
   "note": ""
  },
  {
   "property": "C10",
   "status": "proved",
   "theorems": [
    "C10_check_idempotent",
    "C10_rebuild",
    "C10_rebuild_fails_after_unknown",
    "C10_rebuild_cb14",
    "C10_rebuild_bssa14",
    "C10_rebuild_ask14",
    "C10_rebuild_cy14",
    "C10_rebuild_ba19",
    "C10_rebuild_valid"
   ],
   "note": ""
  },
  {
   "property": "C11",
   "status": "proved",
   "theorems": [
    "C11_pga",
    "C11_pgv",
    "C11_pgd",
    "C11_which_measures",
    "C11_spec_accels",
    "C11_ln_stds",
    "C11_ln_std_pga_without_std"
   ],
   "note": ""
  },
  {
   "property": "C12",
   "status": "proved",
   "theorems": [
    "C12_at_own_period",
    "C12_between",
    "C12_outside",
    "C12_interp_spec_accels",
    "C12_interp_ln_stds"
   ],
   "note": ""
  },
  {
   "property": "C13",
   "status": "proved",
   "theorems": [
    "C13_period_tables_coherent",
    "C13_alternative_tables_agree",
    "C13_periods_property"
   ],
   "note": ""
  },
  {
   "property": "C14",
   "status": "proved",
   "theorems": [
    "C14_declarations_well_formed",
    "C14_no_unknown_key",
    "C14_defaults_silent"
   ],
   "note": ""
  },
  {
   "property": "C15",
   "status": "proved",
   "theorems": [
    "C15_estimates_are_attributes",
    "C15_given_values"
   ],
   "note": ""
  },
  {
   "property": "C16",
   "status": "proved",
   "theorems": [
    "C16_always_raises",
    "C16_not_implemented",
    "C16_key_error",
    "C16_period"
   ],
   "note": ""
  },
  {
   "property": "C17",
   "status": "proved",
   "theorems": [
    "C17_fallback_dead",
    "C17_pga_ref_required"
   ],
   "note": ""
  },
  {
   "property": "C18",
   "status": "proved",
   "theorems": [
    "C18_regions",
    "C18_china_coefficients_differ"
   ],
   "note": ""
  },
  {
   "property": "C19",
   "status": "proved",
   "theorems": [
    "C19_regions"
   ],
   "note": ""
  },
  {
   "property": "C20",
   "status": "proved",
   "theorems": [
    "C20_basin_term",
    "C20_japan_unused"
   ],
   "note": ""
  },
  {
   "property": "C21",
   "status": "proved",
   "theorems": [
    "C21_rock",
    "C21_bc",
    "C21_760",
    "C21_none"
   ],
   "note": ""
  },
  {
   "property": "C22",
   "status": "proved",
   "theorems": [
    "C22_jumps",
    "C22_jump_pga",
    "C22_continuous_760"
   ],
   "note": ""
  },
  {
   "property": "C23",
   "status": "proved",
   "theorems": [
    "C23_joyner_boore_first",
    "C23_hypocentral_second",
    "C23_epicentral_last",
    "C23_tables_differ",
    "C23_no_distance"
   ],
   "note": ""
  },
  {
   "property": "C24",
   "status": "proved",
   "theorems": [
    "C24_adjust_c4_ignored",
    "C24_unknown_like_interface",
    "C24_unknown_backarc"
   ],
   "note": ""
  },
  {
   "property": "C25",
   "status": "proved",
   "theorems": [
    "C25_construction",
    "C25_energy"
   ],
   "note": ""
  },
  {
   "property": "C26",
   "status": "proved",
   "theorems": [
    "C26_increasing"
   ],
   "note": ""
  },
  {
   "property": "C27",
   "status": "proved",
   "theorems": [
    "C27_band",
    "C27_energies"
   ],
   "note": ""
  },
  {
   "property": "C28",
   "status": "proved",
   "theorems": [
    "C28_bin",
    "C28_band_doubled"
   ],
   "note": ""
  },
  {
   "property": "C29",
   "status": "proved",
   "theorems": [
    "C29_band",
    "C29_magnitude",
    "C29_distance",
    "C29_site",
    "C29_continuous"
   ],
   "note": ""
  },
  {
   "property": "C30",
   "status": "proved",
   "theorems": [
    "C30_defined",
    "C30_monotone",
    "C30_undefined"
   ],
   "note": ""
  },
  {
   "property": "C31",
   "status": "proved",
   "theorems": [
    "C31_defined",
    "C31_increases",
    "C31_near",
    "C31_interp"
   ],
   "note": ""
  },
  {
   "property": "C32",
   "status": "proved",
   "theorems": [
    "C32_array_overwritten",
    "C32_list_untouched",
    "C32_result",
    "C32_repeat"
   ],
   "note": ""
  },
  {
   "property": "C33",
   "status": "proved",
   "theorems": [
    "C33_defined",
    "C33_distance",
    "C33_std_magnitude",
    "C33_std_range"
   ],
   "note": ""
  },
  {
   "property": "C34",
   "status": "proved",
   "theorems": [
    "C34_symmetric",
    "C34_unit",
    "C34_range",
    "C34_continuous",
    "C34_shape"
   ],
   "note": ""
  },
  {
   "property": "C35",
   "status": "proved",
   "theorems": [
    "C35_passes_through",
    "C35_never_widens",
    "C35_target",
    "C35_empty"
   ],
   "note": ""
  },
  {
   "property": "C36",
   "status": "proved",
   "theorems": [
    "C36_increasing",
    "C36_targets",
    "C36_std",
    "C36_all_masked"
   ],
   "note": ""
  },
  {
   "property": "C37",
   "status": "proved",
   "theorems": [
    "C37_single"
   ],
   "note": ""
  },
  {
   "property": "C38",
   "status": "proved",
   "theorems": [
    "C38_symmetric",
    "C38_diagonal",
    "C38_diagonal_default",
    "C38_cor",
    "C38_asymmetric"
   ],
   "note": ""
  },
  {
   "property": "C39",
   "status": "proved",
   "theorems": [
    "C39_lengths",
    "C39_ignored",
    "C39_default_mag"
   ],
   "note": ""
  },
  {
   "property": "C40",
   "status": "proved",
   "theorems": [
    "C40_corr",
    "C40_decays",
    "C40_cov_std",
    "C40_cov_component",
    "C40_cov_neither"
   ],
   "note": ""
  },
  {
   "property": "C41",
   "status": "proved",
   "theorems": [
    "C41_std",
    "C41_magnitude",
    "C41_how_many"
   ],
   "note": ""
  },
  {
   "property": "C42",
   "status": "proved",
   "theorems": [
    "C42_high_frequency",
    "C42_linear_on_rock",
    "C42_nonlinear"
   ],
   "note": ""
  },
  {
   "property": "C43",
   "status": "proved",
   "theorems": [
    "C43_attenuates"
   ],
   "note": ""
  },
  {
   "property": "C44",
   "status": "proved",
   "theorems": [
    "C44_continuous_in_mag",
    "C44_continuous_in_dist_x"
   ],
   "note": ""
  },
  {
   "property": "C45",
   "status": "proved",
   "theorems": [
    "C45_std"
   ],
   "note": ""
  },
  {
   "property": "C46",
   "status": "proved",
   "theorems": [
    "C46_aga16_defined",
    "C46_ask14_defined",
    "C46_bssa14_defined",
    "C46_cb14_defined"
   ],
   "note": ""
  },
  {
   "property": "C47",
   "status": "proved",
   "theorems": [
    "C47_attenuates"
   ],
   "note": ""
  },
  {
   "property": "C48",
   "status": "proved",
   "theorems": [
    "C48_site_term_zero",
    "C48_reference"
   ],
   "note": ""
  },
  {
   "property": "C49",
   "status": "proved",
   "theorems": [
    "C49_std",
    "C49_rock_plateaus"
   ],
   "note": ""
  },
  {
   "property": "C50",
   "status": "proved",
   "theorems": [
    "C50_std",
    "C50_rock"
   ],
   "note": ""
  },
  {
   "property": "C51",
   "status": "proved",
   "theorems": [
    "C51_continuous_in_vs30",
    "C51_japan_jump",
    "C51_continuous_in_depth",
    "C51_continuous_in_mag"
   ],
   "note": ""
  },
  {
   "property": "C52",
   "status": "proved",
   "theorems": [
    "C52_attenuates",
    "C52_china_turkey_rises",
    "C52_continuous",
    "C52_std",
    "C52_std_plateaus"
   ],
   "note": ""
  },
  {
   "property": "C53",
   "status": "proved",
   "theorems": [
    "C53_attenuates",
    "C53_hinge",
    "C53_std",
    "C53_std_values"
   ],
   "note": ""
  },
  {
   "property": "C54",
   "status": "proved",
   "theorems": [
    "C54_attenuates",
    "C54_continuous_in_distance",
    "C54_std_positive",
    "C54_std_jump"
   ],
   "note": ""
  },
  {
   "property": "C55",
   "status": "proved",
   "theorems": [
    "C55_domain",
    "C55_std_positive",
    "C55_std_jump"
   ],
   "note": ""
  },
  {
   "property": "C56",
   "status": "proved",
   "theorems": [
    "C56_defined",
    "C56_continuous",
    "C56_std_jump"
   ],
   "note": ""
  },
  {
   "property": "C57",
   "status": "proved",
   "theorems": [
    "C57_bounded",
    "C57_unknown_mechanism"
   ],
   "note": ""
  },
  {
   "property": "C58",
   "status": "proved",
   "theorems": [
    "C58_transparent",
    "C58_loads_once",
    "C58_stale",
    "C58_first",
    "C58_retry",
    "C58_invalid",
    "C58_bad_file"
   ],
   "note": ""
  },
  {
   "property": "C59",
   "status": "proved",
   "theorems": [
    "C59_depth_1_0",
    "C59_depth_tor_cy14",
    "C59_depth_tor_ask14",
    "C59_depth_2_5_of_velocity",
    "C59_depth_2_5_of_depth",
    "C59_geometry_cb14",
    "C59_width_ask14",
    "C59_completed_cb14"
   ],
   "note": ""
  },
  {
   "property": "C60",
   "status": "proved",
   "theorems": [
    "C60_defined",
    "C60_continuous_mag",
    "C60_continuous_vs30",
    "C60_std",
    "C60_interp_ln_std",
    "C60_interp_ratio_node"
   ],
   "note": ""
  },
  {
   "property": "C61",
   "status": "proved",
   "theorems": [
    "C61_defined",
    "C61_attenuates_jb",
    "C61_attenuates_hyp",
    "C61_attenuates_epi",
    "C61_continuous_mag",
    "C61_continuous_vs30"
   ],
   "note": ""
  },
  {
   "property": "C62",
   "status": "proved",
   "theorems": [
    "C62_defined",
    "C62_attenuates_rock",
    "C62_attenuates_pga",
    "C62_continuous_mag",
    "C62_continuous_vs30",
    "C62_step",
    "C62_coppersmith_defined",
    "C62_coppersmith_attenuates",
    "C62_coppersmith_step"
   ],
   "note": ""
  },
  {
   "property": "C63",
   "status": "proved",
   "theorems": [
    "C63_interp_not_duration"
   ],
   "note": ""
  },
  {
   "property": "C64",
   "status": "proved",
   "theorems": [
    "C64_attenuates",
    "C64_attenuates_pga"
   ],
   "note": ""
  },
  {
   "property": "C65",
   "status": "proved",
   "theorems": [
    "C65_continuous_in_mag",
    "C65_japan_italy_jumps"
   ],
   "note": ""
  },
  {
   "property": "C66",
   "status": "proved",
   "theorems": [
    "C66_hanging_wall_needs_dist_x",
    "C66_off_hanging_wall"
   ],
   "note": ""
  },
  {
   "property": "C67",
   "status": "proved",
   "theorems": [
    "C67_default_basin",
    "C67_regions"
   ],
   "note": ""
  },
  {
   "property": "C68",
   "status": "proved",
   "theorems": [
    "C68_continuous_in_vs30",
    "C68_isolated_jump_at_1180"
   ],
   "note": ""
  },
  {
   "property": "C69",
   "status": "proved",
   "theorems": [
    "C69_basin",
    "C69_default_basin"
   ],
   "note": ""
  },
  {
   "property": "C70",
   "status": "proved",
   "theorems": [
    "C70_attenuates",
    "C70_magnitude",
    "C70_mechanism"
   ],
   "note": ""
  },
  {
   "property": "C71",
   "status": "proved",
   "theorems": [
    "C71_basin",
    "C71_jumps"
   ],
   "note": ""
  },
  {
   "property": "C72",
   "status": "proved",
   "theorems": [
    "C72_range",
    "C72_steps",
    "C72_plus",
    "C72_increasing",
    "C72_inversion",
    "C72_minus_undefined"
   ],
   "note": ""
  },
  {
   "property": "C73",
   "status": "proved",
   "theorems": [
    "C73_magnitude",
    "C73_distance",
    "C73_site",
    "C73_continuous"
   ],
   "note": ""
  },
  {
   "property": "C74",
   "status": "proved",
   "theorems": [
    "C74_helpers",
    "C74_disagreement",
    "C74_legacy",
    "C74_legacy_empty"
   ],
   "note": ""
  },
  {
   "property": "C75",
   "status": "proved",
   "theorems": [
    "C75_above_two",
    "C75_cor"
   ],
   "note": ""
  },
  {
   "property": "C76",
   "status": "proved",
   "theorems": [
    "C76_event",
    "C76_site"
   ],
   "note": ""
  },
  {
   "property": "C77",
   "status": "proved",
   "theorems": [
    "C77_nearest",
    "C77_exact",
    "C77_no_distance"
   ],
   "note": ""
  },
  {
   "property": "C78",
   "status": "proved",
   "theorems": [
    "C78_freqs",
    "C78_interp",
    "C78_list"
   ],
   "note": ""
  },
  {
   "property": "C79",
   "status": "proved",
   "theorems": [
    "C79_attenuates",
    "C79_soft_soil_rises"
   ],
   "note": ""
  },
  {
   "property": "C80",
   "status": "proved",
   "theorems": [
    "C80_grows_with_magnitude"
   ],
   "note": ""
  },
  {
   "property": "C81",
   "status": "proved",
   "theorems": [
    "C81_grows_with_magnitude",
    "C81_dips_at_hinge"
   ],
   "note": ""
  },
  {
   "property": "C82",
   "status": "proved",
   "theorems": [
    "C82_grows_with_magnitude",
    "C82_oversaturates"
   ],
   "note": ""
  },
  {
   "property": "C83",
   "status": "proved",
   "theorems": [
    "C83_grows_with_magnitude",
    "C83_oversaturates"
   ],
   "note": ""
  },
  {
   "property": "C84",
   "status": "proved",
   "theorems": [
    "C84_attenuates",
    "C84_rises_between_hinges"
   ],
   "note": ""
  },
  {
   "property": "C85",
   "status": "proved",
   "theorems": [
    "C85_attenuates",
    "C85_rises_between_hinges"
   ],
   "note": ""
  },
  {
   "property": "C86",
   "status": "proved",
   "theorems": [
    "C86_grows_with_magnitude",
    "C86_oversaturates"
   ],
   "note": ""
  },
  {
   "property": "C87",
   "status": "proved",
   "theorems": [
    "C87_grows",
    "C87_soft_soil_drops"
   ],
   "note": ""
  },
  {
   "property": "C88",
   "status": "proved",
   "theorems": [
    "C88_getattr_default_raises",
    "C88_hasattr_never_false",
    "C88_deepcopy_raises",
    "C88_deepcopy_model_raises",
    "C88_unpickle_recurses",
    "C88_unpickle_model_recurses",
    "C88_repr",
    "C88_repr_model"
   ],
   "note": ""
  },
  {
   "property": "C89",
   "status": "proved",
   "theorems": [
    "C89_union_raises",
    "C89_update_unchecked",
    "C89_setdefault_unchecked",
    "C89_fromkeys_unchecked",
    "C89_unknown_key_travels"
   ],
   "note": ""
  },
  {
   "property": "C90",
   "status": "proved",
   "theorems": [
    "C90_grows_rock",
    "C90_grows_pga",
    "C90_interface_reverses",
    "C90_grows_default",
    "C90_coppersmith_grows"
   ],
   "note": ""
  },
  {
   "property": "C91",
   "status": "proved",
   "theorems": [
    "C91_grows",
    "C91_pga_falls_near"
   ],
   "note": ""
  },
  {
   "property": "C92",
   "status": "proved",
   "theorems": [
    "C92_grows_rock",
    "C92_grows",
    "C92_grows_pga",
    "C92_deep_falls"
   ],
   "note": ""
  },
  {
   "property": "C93",
   "status": "proved",
   "theorems": [
    "C93_bssa14_two_steps",
    "C93_bssa14_nan",
    "C93_bssa14_softens",
    "C93_cy14_two_steps",
    "C93_cy14_softens",
    "C93_cy14_log_argument",
    "C93_cy14_needs_depth",
    "C93_cb14_two_steps",
    "C93_cb14_softens",
    "C93_cb14_needs_depth",
    "C93_ask14_softens",
    "C93_ask14_two_steps"
   ],
   "note": ""
  },
  {
   "property": "C94",
   "status": "proved",
   "theorems": [
    "C94_grows",
    "C94_grows_default_depth",
    "C94_default_depth_falls",
    "C94_small_events_fall"
   ],
   "note": ""
  },
  {
   "property": "C95",
   "status": "proved",
   "theorems": [
    "C95_default_depth",
    "C95_given_depth"
   ],
   "note": ""
  },
  {
   "property": "C96",
   "status": "proved",
   "theorems": [
    "C96_ask14",
    "C96_cy14",
    "C96_cb14_rock",
    "C96_cb14_pga",
    "C96_cb14_above",
    "C96_cb14_beyond_lowers"
   ],
   "note": ""
  },
  {
   "property": "C97",
   "status": "proved",
   "theorems": [
    "C97_ask14_reverse",
    "C97_ask14_normal",
    "C97_cy14_normal",
    "C97_cy14_reverse",
    "C97_cb14_reverse",
    "C97_cb14_normal_rock",
    "C97_cb14_normal",
    "C97_cb14_long_periods",
    "C97_bssa14",
    "C97_i14",
    "C97_akb14_normal",
    "C97_akb14_reverse"
   ],
   "note": ""
  },
  {
   "property": "C98",
   "status": "proved",
   "theorems": [
    "C98_cy14",
    "C98_cb14",
    "C98_ask14"
   ],
   "note": ""
  },
  {
   "property": "C99",
   "status": "proved",
   "theorems": [
    "C99_seconds",
    "C99_interp_stds",
    "C99_caller_arrays",
    "C99_increasing"
   ],
   "note": ""
  },
  {
   "property": "C100",
   "status": "proved",
   "theorems": [
    "C100_magnitude",
    "C100_velocity",
    "C100_basin",
    "C100_order",
    "C100_mechanism"
   ],
   "note": ""
  },
  {
   "property": "C101",
   "status": "proved",
   "theorems": [
    "C101_additive",
    "C101_magnitude",
    "C101_order",
    "C101_value"
   ],
   "note": ""
  },
  {
   "property": "C102",
   "status": "proved",
   "theorems": [
    "C102_ask14",
    "C102_cy14"
   ],
   "note": ""
  },
  {
   "property": "C103",
   "status": "proved",
   "theorems": [
    "C103_bssa14_magnitude",
    "C103_bssa14_site",
    "C103_cy14",
    "C103_ask14_magnitude",
    "C103_ask14_japan",
    "C103_cb14"
   ],
   "note": ""
  },
  {
   "property": "C104",
   "status": "proved",
   "theorems": [
    "C104_velocity",
    "C104_reference",
    "C104_mechanism",
    "C104_distance",
    "C104_magnitude",
    "C104_value"
   ],
   "note": ""
  },
  {
   "property": "C105",
   "status": "proved",
   "theorems": [
    "C105_std",
    "C105_distance",
    "C105_depth",
    "C105_magnitude"
   ],
   "note": ""
  },
  {
   "property": "C106",
   "status": "proved",
   "theorems": [
    "PyGmm.C106_stafford",
    "PyGmm.C106_complete",
    "PyGmm.C106_needed"
   ],
   "note": ""
  },
  {
   "property": "C107",
   "status": "proved",
   "theorems": [
    "Coefficients.C107_mapping",
    "Coefficients.C107_attribute",
    "Coefficients.C107_shadowed"
   ],
   "note": ""
  },
  {
   "property": "C108",
   "status": "proved",
   "theorems": [
    "C108_ask14_off_hanging_wall",
    "C108_ask14_main_shock",
    "C108_ask14_y0_given",
    "C108_cy14_off_hanging_wall",
    "C108_cy14_directivity",
    "C108_cb14_footwall",
    "C108_cb14_footwall_dip",
    "C108_cb14_depth_1_0",
    "C108_aga16_interface",
    "C108_aga16_intraslab"
   ],
   "note": ""
  },
  {
   "property": "C109",
   "status": "proved",
   "theorems": [
    "C109_ask14_saturates",
    "C109_ask14_stiff",
    "C109_cy14_saturates",
    "C109_bssa14_saturates",
    "C109_bssa14_stiff",
    "C109_akb14_saturates",
    "C109_akb14_stiff",
    "C109_aga16_saturates",
    "C109_coppersmith_saturates",
    "C109_ba19",
    "C109_cb14_stiff"
   ],
   "note": ""
  },
  {
   "property": "C110",
   "status": "proved",
   "theorems": [
    "C110_ask14_deeper",
    "C110_ask14_deep",
    "C110_cy14_deeper",
    "C110_cy14_dip",
    "C110_cb14_deeper",
    "C110_cb14_deeper_pga",
    "C110_cb14_shallow_or_deep",
    "C110_cb14_dip",
    "C110_aga16_deeper",
    "C110_aga16_deep"
   ],
   "note": ""
  },
  {
   "property": "C111",
   "status": "proved",
   "theorems": [
    "C111_akb14",
    "C111_cb14",
    "C111_ask14",
    "C111_aga16",
    "C111_coppersmith",
    "C111_bssa14",
    "C111_cy14"
   ],
   "note": ""
  },
  {
   "property": "C112",
   "status": "proved",
   "theorems": [
    "AVal.C112_scalar",
    "AVal.C112_array_refused",
    "AVal.C112_list_refused",
    "AVal.C112_unlimited",
    "AVal.C112_unlimited_passes",
    "AVal.C112_one_scenario",
    "AVal.C112_list_category",
    "AVal.C112_array_category"
   ],
   "note": ""
  },
  {
   "property": "C113",
   "status": "proved",
   "theorems": [
    "AB06.C113_scalar",
    "AB06.C113_pairs_rock",
    "AB06.C113_pairs_soil",
    "AB06.C113_soil_same",
    "AB06.C113_refused",
    "AB06.C113_empty_list",
    "AB06.C113_one_entry"
   ],
   "note": ""
  },
  {
   "property": "C114",
   "status": "proved",
   "theorems": [
    "C114_cy14_italy",
    "C114_cy14_china",
    "C114_bssa14_china",
    "C114_bssa14_italy",
    "C114_cb14_near",
    "C114_cb14_far",
    "C114_ask14_china",
    "C114_ask14_distance"
   ],
   "note": ""
  },
  {
   "property": "C115",
   "status": "proved",
   "theorems": [
    "C115_cy14",
    "C115_ask14",
    "C115_bssa14",
    "C115_i14",
    "C115_cb14"
   ],
   "note": ""
  },
  {
   "property": "C116",
   "status": "proved",
   "theorems": [
    "C116_c03",
    "C116_tp05",
    "C116_pea11",
    "C116_akb14",
    "C116_aga16",
    "C116_coppersmith",
    "C116_dbc14",
    "C116_ga11",
    "C116_ab06"
   ],
   "note": ""
  },
  {
   "property": "C117",
   "status": "proved",
   "theorems": [
    "C117_as96",
    "C117_ks06",
    "C117_as16",
    "C117_pr23",
    "C117_pr24"
   ],
   "note": ""
  },
  {
   "property": "C118",
   "status": "proved",
   "theorems": [
    "C118_i14",
    "C118_c03",
    "C118_tp05",
    "C118_pea11",
    "C118_akb14",
    "C118_aga16",
    "C118_coppersmith",
    "C118_dbc14",
    "C118_bssa14",
    "C118_cy14",
    "C118_ask14",
    "C118_cb14",
    "C118_ab06",
    "C118_ga11",
    "C118_ba19",
    "C118_as96",
    "C118_ks06",
    "C118_as16",
    "C118_pr23",
    "C118_pr24"
   ],
   "note": ""
  },
  {
   "property": "C119",
   "status": "proved",
   "theorems": [
    "C119_c03",
    "C119_tp05",
    "C119_pea11",
    "C119_i14",
    "C119_akb14",
    "C119_ab06",
    "C119_dbc14",
    "C119_as96",
    "C119_ks06",
    "C119_as16",
    "C119_pr23",
    "C119_pr24",
    "C119_ga11",
    "C119_hkr14",
    "C119_aga16",
    "C119_coppersmith",
    "C119_ask14",
    "C119_ba19",
    "C119_bssa14",
    "C119_cy14",
    "C119_cb14",
    "C119_silent_iff",
    "C119_recommended_silent"
   ],
   "note": ""
  },
  {
   "property": "C120",
   "status": "proved",
   "theorems": [
    "C120_interp",
    "C120_interp_stds",
    "C120_interp_finite",
    "C120_cy14"
   ],
   "note": ""
  },
  {
   "property": "C121",
   "status": "proved",
   "theorems": [
    "C121_i14",
    "C121_c03",
    "C121_tp05",
    "C121_pea11",
    "C121_ab06",
    "C121_ga11",
    "C121_bssa14",
    "C121_cy14",
    "C121_ba19",
    "C121_as96",
    "C121_ks06",
    "C121_as16",
    "C121_pr23",
    "C121_akb14",
    "C121_dbc14",
    "C121_ask14",
    "C121_cb14",
    "C121_pr24",
    "C121_coppersmith",
    "C121_aga16"
   ],
   "note": ""
  },
  {
   "property": "C122",
   "status": "proved",
   "theorems": [
    "C122_no_unbound_variable",
    "C122_failure_is_a_formula",
    "C122_detects_missing_branch"
   ],
   "note": ""
  },
  {
   "property": "C123",
   "status": "proved",
   "theorems": [
    "C123_i14",
    "C123_c03",
    "C123_c03_grows",
    "C123_pea11",
    "C123_dbc14_floor",
    "C123_akb14",
    "C123_cy14",
    "C123_bssa14",
    "C123_bssa14_china",
    "C123_bssa14_japan",
    "C123_ask14",
    "C123_cb14",
    "C123_tp05",
    "C123_ab06",
    "C123_aga16",
    "C123_coppersmith"
   ],
   "note": ""
  },
  {
   "property": "C124",
   "status": "proved",
   "theorems": [
    "C124_by_value",
    "C124_c03",
    "C124_tp05",
    "C124_pea11",
    "C124_i14",
    "C124_akb14",
    "C124_ba19",
    "C124_ba18_corr",
    "C124_ba18_cov",
    "C124_stafford_cov",
    "C124_bssa14_site",
    "C124_cb14_site",
    "C124_cy14",
    "C124_ask14",
    "C124_bssa14",
    "C124_cb14",
    "C124_aga16",
    "C124_coppersmith",
    "C124_ga11",
    "C124_ask14_site",
    "C124_cy14_site",
    "C124_ab06",
    "C124_dbc14"
   ],
   "note": ""
  },
  {
   "property": "C125",
   "status": "proved",
   "theorems": [
    "C125_result",
    "C125_same_file",
    "C125_no_waiting",
    "C125_alone",
    "C125_loads",
    "C125_late"
   ],
   "note": ""
  },
  {
   "property": "C126",
   "status": "proved",
   "theorems": [
    "C126_threads",
    "C126_own_results",
    "C126_deterministic",
    "C126_no_waiting",
    "C126_bound"
   ],
   "note": ""
  },
  {
   "property": "C127",
   "status": "proved",
   "theorems": [
    "C127_correl",
    "C127_cms",
    "C127_cmsv"
   ],
   "note": ""
  },
  {
   "property": "C128",
   "status": "proved",
   "theorems": [
    "C128_mixture",
    "C128_quiet",
    "C128_scenarios",
    "C128_final",
    "C128_no_waiting"
   ],
   "note": ""
  },
  {
   "property": "C129",
   "status": "proved",
   "theorems": [
    "C129_linear",
    "C129_nearest",
    "C129_nearest_up",
    "C129_previous",
    "C129_next",
    "C129_at_nodes",
    "C129_outside",
    "C129_unknown",
    "C129_exp"
   ],
   "note": ""
  },
  {
   "property": "C130",
   "status": "proved",
   "theorems": [
    "C130_pass_through",
    "C130_median",
    "C130_mismatch",
    "C130_outside",
    "C130_usable",
    "C130_campbell"
   ],
   "note": ""
  },
  {
   "property": "C131",
   "status": "proved",
   "theorems": [
    "C131_median",
    "C131_superposition",
    "C131_scale"
   ],
   "note": ""
  },
  {
   "property": "C132",
   "status": "proved",
   "theorems": [
    "C132_targets",
    "C132_median",
    "C132_single"
   ],
   "note": ""
  },
  {
   "property": "C133",
   "status": "proved",
   "theorems": [
    "C133_same",
    "C133_other",
    "C133_vector"
   ],
   "note": ""
  },
  {
   "property": "C134",
   "status": "proved",
   "theorems": [
    "C134_semantics",
    "C134_exactly",
    "C134_first",
    "C134_energy"
   ],
   "note": ""
  },
  {
   "property": "C135",
   "status": "proved",
   "theorems": [
    "C135_optimal",
    "C135_more_targets",
    "C135_scalar",
    "C135_scalar_optimal",
    "C135_narrower"
   ],
   "note": ""
  },
  {
   "property": "C136",
   "status": "proved",
   "theorems": [
    "C136_predicted",
    "C136_scalar",
    "C136_models"
   ],
   "note": ""
  }
 ]
}