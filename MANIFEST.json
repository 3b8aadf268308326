{
 "claims": [
  {
   "property": "C01",
   "status": "proved",
   "theorems": [
    "UA.C01_square_root_branch"
   ],
   "note": ""
  },
  {
   "property": "C02",
   "status": "proved",
   "theorems": [
    "UA.C02_square_root_differentiable",
    "UA.C02_square_root_continuous_from_above",
    "UA.C02_square_root_jump",
    "UA.C02_square_root_continuous_zero"
   ],
   "note": ""
  },
  {
   "property": "C03",
   "status": "partial",
   "theorems": [
    "UA.C03_validation_partial",
    "UA.C03_accepts_equal"
   ],
   "note": "The code accepts exactly 0 <= t_0 <= t_in. The documented strict inequality is refuted by C03_accepts_equal with witness t_0 = t_in = 1."
  },
  {
   "property": "C04",
   "status": "proved",
   "theorems": [
    "UA.C04_TtoW_defined"
   ],
   "note": ""
  },
  {
   "property": "C05",
   "status": "proved",
   "theorems": [
    "UA.C05_image"
   ],
   "note": ""
  },
  {
   "property": "C06",
   "status": "proved",
   "theorems": [
    "UA.C06_roundtrip_t"
   ],
   "note": ""
  },
  {
   "property": "C07",
   "status": "proved",
   "theorems": [
    "UA.C07_roundtrip_W",
    "UA.C07_bijection"
   ],
   "note": ""
  },
  {
   "property": "C08",
   "status": "proved",
   "theorems": [
    "UA.C08_four_to_one",
    "UA.C08_attained",
    "UA.C08_uniformises"
   ],
   "note": ""
  },
  {
   "property": "C09",
   "status": "proved",
   "theorems": [
    "UA.C09_reflection",
    "UA.C09_real"
   ],
   "note": ""
  },
  {
   "property": "C10",
   "status": "partial",
   "theorems": [
    "UA.C10_degenerate_always_raises",
    "UA.C10_false",
    "UA.C10_component_usable_partial"
   ],
   "note": "False at t_in = t_0: C10_false with a concrete witness. For t_0 < t_in proved (C10_component_usable_partial)."
  },
  {
   "property": "C11",
   "status": "proved",
   "theorems": [
    "UA.C11_component_normalised"
   ],
   "note": ""
  },
  {
   "property": "C12",
   "status": "proved",
   "theorems": [
    "UA.C12_thresholds",
    "UA.C12_thresholds_nucleon"
   ],
   "note": ""
  },
  {
   "property": "C13",
   "status": "proved",
   "theorems": [
    "UA.C13_zero_width_is_vmd"
   ],
   "note": ""
  },
  {
   "property": "C14",
   "status": "proved",
   "theorems": [
    "UA.C14_poles",
    "UA.C14_real_defined"
   ],
   "note": ""
  },
  {
   "property": "C15",
   "status": "partial",
   "theorems": [
    "UA.C15_holomorphic_partial",
    "UA.C15_physical_sheet_poles",
    "UA.C15_false"
   ],
   "note": "False: the resonance pole and its conjugate lie on the physical sheet (C15_false). Holomorphic everywhere else off the cut (C15_holomorphic_partial)."
  },
  {
   "property": "C16",
   "status": "proved",
   "theorems": [
    "UA.C16_component_reflection",
    "UA.C16_component_real"
   ],
   "note": ""
  },
  {
   "property": "C17",
   "status": "proved",
   "theorems": [
    "UA.C17_component_fall_off"
   ],
   "note": ""
  },
  {
   "property": "C18",
   "status": "proved",
   "theorems": [
    "UA.C18_kaon_normalisation"
   ],
   "note": ""
  },
  {
   "property": "C19",
   "status": "proved",
   "theorems": [
    "UA.C19_zero_width_is_vmd"
   ],
   "note": ""
  },
  {
   "property": "C20",
   "status": "proved",
   "theorems": [
    "UA.C20_domain",
    "UA.C20_total_on_data"
   ],
   "note": ""
  },
  {
   "property": "C21",
   "status": "proved",
   "theorems": [
    "UA.C21_schwarz",
    "UA.C21_real"
   ],
   "note": ""
  },
  {
   "property": "C22",
   "status": "proved",
   "theorems": [
    "UA.C22_isospin",
    "UA.C22_switch_domain",
    "UA.C22_switch_built"
   ],
   "note": ""
  },
  {
   "property": "C23",
   "status": "proved",
   "theorems": [
    "UA.C23_nucleon_normalisation"
   ],
   "note": ""
  },
  {
   "property": "C24",
   "status": "proved",
   "theorems": [
    "UA.C24_cache_invisible",
    "UA.C24_lookup_is_computation"
   ],
   "note": ""
  },
  {
   "property": "C25",
   "status": "proved",
   "theorems": [
    "UA.C25_fall_off",
    "UA.C25_form_factor_fall_off"
   ],
   "note": ""
  },
  {
   "property": "C26",
   "status": "partial",
   "theorems": [
    "UA.C26_kaon",
    "UA.C26_nucleon_partial",
    "UA.C26_false"
   ],
   "note": "Proved for the five kaon classes (C26_kaon). False for the nucleon (C26_false: mass 2, width 4, t_0 = 1); C26_nucleon_partial characterises acceptance exactly."
  },
  {
   "property": "C27",
   "status": "proved",
   "theorems": [
    "UA.C27_single_normalised",
    "UA.C27_single_domain"
   ],
   "note": ""
  },
  {
   "property": "C28",
   "status": "proved",
   "theorems": [
    "UA.C28_vmd_sum",
    "UA.C28_vmd_perm",
    "UA.C28_vmd_append"
   ],
   "note": ""
  },
  {
   "property": "C29",
   "status": "proved",
   "theorems": [
    "UA.C29_etgmr",
    "UA.C29_two_poles",
    "UA.C29_damped"
   ],
   "note": ""
  },
  {
   "property": "C30",
   "status": "proved",
   "theorems": [
    "UA.C30_scalar_cross_section",
    "UA.C30_sign",
    "UA.C30_errors",
    "UA.C30_below_threshold"
   ],
   "note": ""
  },
  {
   "property": "C31",
   "status": "proved",
   "theorems": [
    "UA.C31_switch_irrelevant",
    "UA.C31_object_after",
    "UA.C31_value",
    "UA.C31_formula"
   ],
   "note": ""
  },
  {
   "property": "C32",
   "status": "proved",
   "theorems": [
    "UA.C32_round_trip",
    "UA.C32_error_propagation",
    "UA.C32_error_for_square_root",
    "UA.C32_exceptions",
    "UA.C32_table",
    "UA.C32_first_failure"
   ],
   "note": ""
  },
  {
   "property": "C33",
   "status": "partial",
   "theorems": [
    "UA.C33_effective_form_factor_partial",
    "UA.C33_zero_raises",
    "UA.C33_false"
   ],
   "note": "False: the extraction omits hc_squared, so the result is sqrt(hc_squared)*G (C33_false, witness hc_squared = 4). C33_effective_form_factor_partial gives the exact value."
  },
  {
   "property": "C34",
   "status": "proved",
   "theorems": [
    "UA.C34_kinematics",
    "UA.C34_monotone"
   ],
   "note": ""
  },
  {
   "property": "C35",
   "status": "proved",
   "theorems": [
    "UA.C35_names_stable",
    "UA.C35_names_canonical"
   ],
   "note": ""
  },
  {
   "property": "C36",
   "status": "proved",
   "theorems": [
    "UA.C36_always_fixed",
    "UA.C36_refused"
   ],
   "note": ""
  },
  {
   "property": "C37",
   "status": "proved",
   "theorems": [
    "UA.C37_copy"
   ],
   "note": ""
  },
  {
   "property": "C38",
   "status": "proved",
   "theorems": [
    "UA.C38_constructor",
    "UA.C38_wrong_keywords",
    "UA.C38_positional"
   ],
   "note": ""
  },
  {
   "property": "C39",
   "status": "proved",
   "theorems": [
    "UA.C39_from_list",
    "UA.C39_order_irrelevant",
    "UA.C39_wrong_names",
    "UA.C39_repeated"
   ],
   "note": ""
  },
  {
   "property": "C40",
   "status": "proved",
   "theorems": [
    "UA.C40_update",
    "UA.C40_write_back",
    "UA.C40_wrong_length"
   ],
   "note": ""
  },
  {
   "property": "C41",
   "status": "proved",
   "theorems": [
    "UA.C41_set_value",
    "UA.C41_unknown",
    "UA.C41_set_item",
    "UA.C41_set_item_refused"
   ],
   "note": ""
  },
  {
   "property": "C42",
   "status": "proved",
   "theorems": [
    "UA.C42_fix",
    "UA.C42_release",
    "UA.C42_release_refused",
    "UA.C42_all",
    "UA.C42_values_kept"
   ],
   "note": ""
  },
  {
   "property": "C43",
   "status": "partial",
   "theorems": [
    "UA.C43_fix_changes_before_raising",
    "UA.C43_negation",
    "UA.C43_failing_partial"
   ],
   "note": "False: a failing call has already changed the flags of the names before the unknown one (C43_negation). C43_failing_partial describes exactly what is left behind."
  },
  {
   "property": "C44",
   "status": "proved",
   "theorems": [
    "UA.C44_bounds",
    "UA.C44_maximal_values",
    "UA.C44_negative_threshold"
   ],
   "note": ""
  },
  {
   "property": "C45",
   "status": "proved",
   "theorems": [
    "UA.C45_round_trip",
    "UA.C45_errors",
    "UA.C45_recovers_list"
   ],
   "note": ""
  },
  {
   "property": "C46",
   "status": "partial",
   "theorems": [
    "UA.C46_negation",
    "UA.C46_determined_partial"
   ],
   "note": "False for ETGMRModelParameters, whose ordered values omit m_d (C46_negation). Proved for the other eight classes (C46_determined_partial)."
  },
  {
   "property": "C47",
   "status": "proved",
   "theorems": [
    "UA.C47_fix_resonances",
    "UA.C47_fix_resonances_any",
    "UA.C47_not_offered"
   ],
   "note": ""
  },
  {
   "property": "C48",
   "status": "proved",
   "theorems": [
    "UA.C48_within",
    "UA.C48_only_free"
   ],
   "note": ""
  },
  {
   "property": "C49",
   "status": "partial",
   "theorems": [
    "UA.C49_unbounded_partial",
    "UA.C49_false"
   ],
   "note": "False: a draw of the opposite sign flips the sign of the value (C49_false). C49_unbounded_partial gives the exact change in both cases."
  },
  {
   "property": "C50",
   "status": "proved",
   "theorems": [
    "UA.C50_kaon",
    "UA.C50_nucleon",
    "UA.C50_background",
    "UA.C50_unsupported"
   ],
   "note": ""
  },
  {
   "property": "C51",
   "status": "proved",
   "theorems": [
    "UA.C51_append",
    "UA.C51_pointwise",
    "UA.C51_first_failure"
   ],
   "note": ""
  },
  {
   "property": "C52",
   "status": "proved",
   "theorems": [
    "UA.C52_rows",
    "UA.C52_read",
    "UA.C52_any_row"
   ],
   "note": ""
  },
  {
   "property": "C53",
   "status": "partial",
   "theorems": [
    "UA.C53_always_fails",
    "UA.C53_false",
    "UA.C53_empty_partial"
   ],
   "note": "False for every non-empty list: AttributeError (C53_always_fails, C53_false). Only the empty list works (C53_empty_partial)."
  },
  {
   "property": "C54",
   "status": "proved",
   "theorems": [
    "UA.C54_result",
    "UA.C54_caller_untouched"
   ],
   "note": ""
  },
  {
   "property": "C55",
   "status": "partial",
   "theorems": [
    "UA.C55_run_partial",
    "UA.C55_failed",
    "UA.C55_false"
   ],
   "note": "For all task classes but the residual one, for which see C71_run. False as stated: if the values of the fitted function are Python numbers, as for a kaon model with only masses free, as many points as free parameters (or a zero error) make the report computation raise ZeroDivisionError after a successful fit (C55_false). C55_run_partial gives every outcome."
  },
  {
   "property": "C56",
   "status": "proved",
   "theorems": [
    "UA.C56_flags",
    "UA.C56_function",
    "UA.C56_charged",
    "UA.C56_all_points",
    "UA.C56_charged_fit"
   ],
   "note": ""
  },
  {
   "property": "C57",
   "status": "partial",
   "theorems": [
    "UA.C57_run_partial",
    "UA.C57_iterative_partial",
    "UA.C57_nucleonCS_partial",
    "UA.C57_decimals",
    "UA.C57_false"
   ],
   "note": "False: the values are compared as strings (C57_false: 16.0 stays best after 9.0). The best fit has the smallest text (C57_run_partial, C57_iterative_partial), which is the smallest value for equally many digits before the point (C57_decimals)."
  },
  {
   "property": "C58",
   "status": "proved",
   "theorems": [
    "UA.C58_kaon",
    "UA.C58_nucleon",
    "UA.C58_empty",
    "UA.C58_single_fit"
   ],
   "note": ""
  },
  {
   "property": "C59",
   "status": "proved",
   "theorems": [
    "UA.C59_chosen",
    "UA.C59_outcome",
    "UA.C59_no_resonances",
    "UA.C59_values"
   ],
   "note": ""
  },
  {
   "property": "C60",
   "status": "proved",
   "theorems": [
    "UA.C60_existing",
    "UA.C60_new",
    "UA.C60_paths",
    "UA.C60_run"
   ],
   "note": ""
  },
  {
   "property": "C61",
   "status": "proved",
   "theorems": [
    "UA.C61_undress",
    "UA.C61_identity",
    "UA.C61_errors"
   ],
   "note": ""
  },
  {
   "property": "C62",
   "status": "proved",
   "theorems": [
    "UA.C62_zero_width_classes_agree"
   ],
   "note": ""
  },
  {
   "property": "C63",
   "status": "proved",
   "theorems": [
    "UA.C63_nucleon_domain"
   ],
   "note": ""
  },
  {
   "property": "C64",
   "status": "proved",
   "theorems": [
    "UA.C64_nucleon_schwarz",
    "UA.C64_nucleon_real"
   ],
   "note": ""
  },
  {
   "property": "C65",
   "status": "proved",
   "theorems": [
    "UA.C65_isoscalar",
    "UA.C65_isovector",
    "UA.C65_switch_domain"
   ],
   "note": ""
  },
  {
   "property": "C66",
   "status": "partial",
   "theorems": [
    "UA.C66_iterative",
    "UA.C66_nucleonCS_partial",
    "UA.C66_false"
   ],
   "note": "Proved for the three other iterative pipelines (C66_iterative). False for the nucleon cross section pipeline (C66_false: a completed run with one data point): it prints three last messages that do not get into report.txt; C66_nucleonCS_partial says exactly what does."
  },
  {
   "property": "C67",
   "status": "proved",
   "theorems": [
    "UA.C67_kaon_is_sum_of_single_components"
   ],
   "note": ""
  },
  {
   "property": "C68",
   "status": "proved",
   "theorems": [
    "UA.C68_component_never_zero"
   ],
   "note": ""
  },
  {
   "property": "C69",
   "status": "proved",
   "theorems": [
    "UA.C69_nucleon_zero_width_is_vmd"
   ],
   "note": ""
  },
  {
   "property": "C70",
   "status": "proved",
   "theorems": [
    "UA.C70_mass_terms_negative",
    "UA.C70_mass_term_own_thresholds",
    "UA.C70_cache_settles"
   ],
   "note": ""
  },
  {
   "property": "C71",
   "status": "proved",
   "theorems": [
    "UA.C71_residuals",
    "UA.C71_residual",
    "UA.C71_state",
    "UA.C71_function",
    "UA.C71_run"
   ],
   "note": ""
  },
  {
   "property": "C72",
   "status": "proved",
   "theorems": [
    "UA.C72_table",
    "UA.C72_errors",
    "UA.C72_state"
   ],
   "note": ""
  },
  {
   "property": "C73",
   "status": "proved",
   "theorems": [
    "UA.C73_flag_irrelevant",
    "UA.C73_value"
   ],
   "note": ""
  },
  {
   "property": "C74",
   "status": "proved",
   "theorems": [
    "UA.C74_cross_sections",
    "UA.C74_form_factors",
    "UA.C74_electric_magnetic",
    "UA.C74_short"
   ],
   "note": ""
  },
  {
   "property": "C75",
   "status": "proved",
   "theorems": [
    "UA.C75_read",
    "UA.C75_errors"
   ],
   "note": ""
  },
  {
   "property": "C76",
   "status": "proved",
   "theorems": [
    "UA.C76_report",
    "UA.C76_made"
   ],
   "note": ""
  },
  {
   "property": "C77",
   "status": "proved",
   "theorems": [
    "UA.C77_collected",
    "UA.C77_best",
    "UA.C77_printed"
   ],
   "note": ""
  },
  {
   "property": "C78",
   "status": "proved",
   "theorems": [
    "UA.C78_version2",
    "UA.C78_version3"
   ],
   "note": ""
  },
  {
   "property": "C79",
   "status": "proved",
   "theorems": [
    "UA.C79_initial",
    "UA.C79_nucleon_accepted",
    "UA.C79_perturbed",
    "UA.C79_boundary",
    "UA.C79_nucleon_start",
    "UA.C79_simplified_start",
    "UA.C79_run",
    "UA.C79_completes"
   ],
   "note": ""
  },
  {
   "property": "C80",
   "status": "proved",
   "theorems": [
    "UA.C80_form_factors",
    "UA.C80_cross_sections",
    "UA.C80_fit",
    "UA.C80_start"
   ],
   "note": ""
  },
  {
   "property": "C81",
   "status": "proved",
   "theorems": [
    "UA.C81_run",
    "UA.C81_iterative",
    "UA.C81_completes"
   ],
   "note": ""
  },
  {
   "property": "C82",
   "status": "partial",
   "theorems": [
    "UA.C82_form_factors_partial",
    "UA.C82_cross_sections_partial",
    "UA.C82_false"
   ],
   "note": "False: inside the handpicked bounds two mass terms can coincide, and no point can be evaluated (C82_false). C82_form_factors_partial and C82_cross_sections_partial characterise success exactly."
  },
  {
   "property": "C83",
   "status": "proved",
   "theorems": [
    "UA.C83_run",
    "UA.C83_ff_iterative",
    "UA.C83_cs_iterative",
    "UA.C83_script"
   ],
   "note": ""
  },
  {
   "property": "C84",
   "status": "proved",
   "theorems": [
    "UA.C84_drawn",
    "UA.C84_square_root",
    "UA.C84_reciprocal",
    "UA.C84_w_to_t",
    "UA.C84_t_to_w",
    "UA.C84_versions"
   ],
   "note": ""
  },
  {
   "property": "C85",
   "status": "partial",
   "theorems": [
    "UA.C85_continuous_partial",
    "UA.C85_false",
    "UA.C85_component",
    "UA.C85_jump"
   ],
   "note": "False: at the change of variant (mass squared = inelastic threshold) the components jump at every t other than 0 (C85_jump, C85_false). C85_continuous_partial proves continuity everywhere else inside the bounds."
  },
  {
   "property": "C86",
   "status": "proved",
   "theorems": [
    "UA.C86_same_content",
    "UA.C86_order_and_signs",
    "UA.C86_zero_couplings",
    "UA.C86_b_in_full",
    "UA.C86_simplified_in_full",
    "UA.C86_affine"
   ],
   "note": ""
  },
  {
   "property": "C87",
   "status": "proved",
   "theorems": [
    "UA.C87_kaon_start",
    "UA.C87_kaon_run",
    "UA.C87_kaon_completes",
    "UA.C87_nucleon_start",
    "UA.C87_nucleon_run"
   ],
   "note": ""
  },
  {
   "property": "C88",
   "status": "proved",
   "theorems": [
    "UA.C88_task",
    "UA.C88_unknown",
    "UA.C88_never",
    "UA.C88_exception"
   ],
   "note": ""
  },
  {
   "property": "C89",
   "status": "proved",
   "theorems": [
    "UA.C89_map_threshold",
    "UA.C89_kaon",
    "UA.C89_kaon_threshold",
    "UA.C89_kaon_jump",
    "UA.C89_nucleon",
    "UA.C89_nucleon_threshold"
   ],
   "note": ""
  },
  {
   "property": "C90",
   "status": "proved",
   "theorems": [
    "UA.C90_kaon_model",
    "UA.C90_kaon_form_factors",
    "UA.C90_kaon_cross_sections",
    "UA.C90_nucleon_form_factors",
    "UA.C90_nucleon_cross_sections"
   ],
   "note": ""
  },
  {
   "property": "C91",
   "status": "proved",
   "theorems": [
    "UA.C91_object",
    "UA.C91_empty",
    "UA.C91_run",
    "UA.C91_completes",
    "UA.C91_threshold"
   ],
   "note": ""
  },
  {
   "property": "C92",
   "status": "proved",
   "theorems": [
    "UA.C92_empty",
    "UA.C92_component",
    "UA.C92_figure",
    "UA.C92_threshold"
   ],
   "note": ""
  },
  {
   "property": "C93",
   "status": "proved",
   "theorems": [
    "UA.C93_component",
    "UA.C93_kaon_analytic",
    "UA.C93_kaon_pole",
    "UA.C93_kaon_unbounded",
    "UA.C93_nucleon_analytic",
    "UA.C93_nucleon_pole"
   ],
   "note": ""
  },
  {
   "property": "C94",
   "status": "proved",
   "theorems": [
    "UA.C94_float",
    "UA.C94_float_refused",
    "UA.C94_configuration",
    "UA.C94_configuration_any",
    "UA.C94_kaon_data",
    "UA.C94_proton_data",
    "UA.C94_conversion",
    "UA.C94_single_component",
    "UA.C94_deviations",
    "UA.C94_kaon_single_fit",
    "UA.C94_nucleon_single_fit",
    "UA.C94_other_models",
    "UA.C94_plot_fit"
   ],
   "note": ""
  },
  {
   "property": "C95",
   "status": "proved",
   "theorems": [
    "UA.C95_iterative",
    "UA.C95_nucleonCS",
    "UA.C95_run",
    "UA.C95_constants",
    "UA.C95_resonances"
   ],
   "note": ""
  },
  {
   "property": "C96",
   "status": "proved",
   "theorems": [
    "UA.C96_iterative",
    "UA.C96_nucleonCS",
    "UA.C96_run",
    "UA.C96_kaon_script",
    "UA.C96_nucleon_script"
   ],
   "note": ""
  },
  {
   "property": "C97",
   "status": "proved",
   "theorems": [
    "UA.C97_runs",
    "UA.C97_pool",
    "UA.C97_completes",
    "UA.C97_again",
    "UA.C97_ff",
    "UA.C97_fixed",
    "UA.C97_simplified"
   ],
   "note": ""
  },
  {
   "property": "C98",
   "status": "proved",
   "theorems": [
    "UA.C98_run",
    "UA.C98_ff_iterative",
    "UA.C98_cs_iterative",
    "UA.C98_script"
   ],
   "note": ""
  },
  {
   "property": "C99",
   "status": "proved",
   "theorems": [
    "UA.C99_runs",
    "UA.C99_completes",
    "UA.C99_errors",
    "UA.C99_again",
    "UA.C99_main"
   ],
   "note": ""
  },
  {
   "property": "C100",
   "status": "proved",
   "theorems": [
    "UA.C100_run",
    "UA.C100_iterative",
    "UA.C100_nucleonCS"
   ],
   "note": ""
  },
  {
   "property": "C101",
   "status": "proved",
   "theorems": [
    "UA.C101_run",
    "UA.C101_iterative",
    "UA.C101_nucleonCS"
   ],
   "note": ""
  },
  {
   "property": "C102",
   "status": "proved",
   "theorems": [
    "UA.C102_runs",
    "UA.C102_pool",
    "UA.C102_nucleon",
    "UA.C102_refused",
    "UA.C102_existing"
   ],
   "note": ""
  },
  {
   "property": "C103",
   "status": "proved",
   "theorems": [
    "UA.C103_form_factor",
    "UA.C103_cross_section",
    "UA.C103_fit",
    "UA.C103_other"
   ],
   "note": ""
  },
  {
   "property": "C104",
   "status": "proved",
   "theorems": [
    "UA.C104_continuous",
    "UA.C104_jump"
   ],
   "note": ""
  },
  {
   "property": "C105",
   "status": "proved",
   "theorems": [
    "UA.C105_couplings",
    "UA.C105_values",
    "UA.C105_objects"
   ],
   "note": ""
  },
  {
   "property": "C106",
   "status": "proved",
   "theorems": [
    "UA.C106_labels_and_signs",
    "UA.C106_threshold",
    "UA.C106_affine"
   ],
   "note": ""
  },
  {
   "property": "C107",
   "status": "proved",
   "theorems": [
    "UA.C107_below_threshold",
    "UA.C107_at_threshold",
    "UA.C107_above_threshold",
    "UA.C107_spacelike",
    "UA.C107_double",
    "UA.C107_spacelike_double",
    "UA.C107_exact",
    "UA.C107_collapse"
   ],
   "note": ""
  },
  {
   "property": "C108",
   "status": "proved",
   "theorems": [
    "UA.C108_lines",
    "UA.C108_kaon_form_factors",
    "UA.C108_kaon_cross_sections",
    "UA.C108_nucleon_form_factors",
    "UA.C108_nucleon_cross_sections"
   ],
   "note": ""
  },
  {
   "property": "C109",
   "status": "proved",
   "theorems": [
    "UA.C109_counterpart",
    "UA.C109_form_factors",
    "UA.C109_cross_sections",
    "UA.C109_other_models",
    "UA.C109_bounds",
    "UA.C109_handpicked"
   ],
   "note": ""
  },
  {
   "property": "C110",
   "status": "proved",
   "theorems": [
    "UA.C110_kaon",
    "UA.C110_nucleon",
    "UA.C110_unbounded"
   ],
   "note": ""
  },
  {
   "property": "C111",
   "status": "proved",
   "theorems": [
    "UA.C111_kaon",
    "UA.C111_nucleon",
    "UA.C111_finite"
   ],
   "note": ""
  },
  {
   "property": "C112",
   "status": "proved",
   "theorems": [
    "UA.C112_iterative",
    "UA.C112_exact",
    "UA.C112_nucleonCS",
    "UA.C112_exact_nucleonCS",
    "UA.C112_run",
    "UA.C112_kaonFF",
    "UA.C112_kaonFF_charged",
    "UA.C112_charged_run",
    "UA.C112_kaonFF_worse"
   ],
   "note": ""
  }
 ]
}