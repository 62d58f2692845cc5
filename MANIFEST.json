{
 "claims": [
  {
   "property": "C01",
   "status": "partial",
   "theorems": [
    "Mimosa.C01_only_known_names",
    "Mimosa.C01_only_known_paths_partial",
    "Mimosa.C01_unknown_path_rejected_partial",
    "Mimosa.C01_dash_key_accepted",
    "Mimosa.C01_empty_section_accepted"
   ],
   "note": "Proved for paths whose keys contain no dash (the default configuration's keys contain none). With a dash the claim is false of the code: names are compared after joining with ' - ', so a top-level key 'emissions - carbonbudget' is accepted and ignored (C01_dash_key_accepted); an unknown empty section is accepted too (C01_empty_section_accepted). What holds for all keys: C01_only_known_names."
  },
  {
   "property": "C02",
   "status": "proved",
   "theorems": [
    "Mimosa.C02_values",
    "Mimosa.C02_nothing_else",
    "Mimosa.C02_sections",
    "Mimosa.C02_value_unique",
    "Mimosa.C02_bad_value_rejected",
    "Mimosa.C02_default_config_accepted"
   ],
   "note": ""
  },
  {
   "property": "C03",
   "status": "partial",
   "theorems": [
    "Mimosa.C03_check_twice_partial",
    "Mimosa.C03_check_twice_no_optional",
    "Mimosa.C03_check_twice_default_partial",
    "Mimosa.C03_zero_becomes_false",
    "Mimosa.C03_zero_becomes_false_default",
    "Mimosa.C03_mimosa_of_load_params_partial"
   ],
   "note": "Proved unless a numeric can_be_false parameter is parsed to the number 0 from something not written as false (such as '0.0'); then the claim is false of the code (C03_zero_becomes_false, C03_zero_becomes_false_default)."
  },
  {
   "property": "C04",
   "status": "partial",
   "theorems": [
    "Mimosa.C04_int_in_bounds",
    "Mimosa.C04_float_in_bounds_partial",
    "Mimosa.C04_out_of_bounds_valueError",
    "Mimosa.C04_out_of_bounds_rejected",
    "Mimosa.C04_out_of_bounds_int_rejected",
    "Mimosa.C04_not_a_number_rejected",
    "Mimosa.C04_nan_accepted"
   ],
   "note": "Proved for int parameters and for every float that is a number. nan passes all bounds checks (C04_nan_accepted)."
  },
  {
   "property": "C05",
   "status": "proved",
   "theorems": [
    "Mimosa.C05_enum",
    "Mimosa.C05_enum_string",
    "Mimosa.C05_enum_rejects",
    "Mimosa.C05_bool",
    "Mimosa.C05_bool_value",
    "Mimosa.C05_list",
    "Mimosa.C05_dict",
    "Mimosa.C05_datasource"
   ],
   "note": ""
  },
  {
   "property": "C06",
   "status": "proved",
   "theorems": [
    "Mimosa.C06_false_iff",
    "Mimosa.C06_not_silently_off",
    "Mimosa.C06_zero_is_off"
   ],
   "note": ""
  },
  {
   "property": "C07",
   "status": "proved",
   "theorems": [
    "Mimosa.C07_get_after_set",
    "Mimosa.C07_get_below_set",
    "Mimosa.C07_get_other",
    "Mimosa.C07_prefix_is_dict",
    "Mimosa.C07_set_succeeds_iff",
    "Mimosa.C07_flatten_sound",
    "Mimosa.C07_flatten_complete",
    "Mimosa.C07_flatten_exact",
    "Mimosa.C07_each_leaf_once",
    "Mimosa.C07_flatten_collision"
   ],
   "note": ""
  },
  {
   "property": "C08",
   "status": "partial",
   "theorems": [
    "Mimosa.C08_references_found",
    "Mimosa.C08_same_paths",
    "Mimosa.C08_non_string_unchanged",
    "Mimosa.C08_unresolved_unchanged",
    "Mimosa.C08_substituted_partial",
    "Mimosa.C08_substituted_plain_partial",
    "Mimosa.C08_one_reference_substituted",
    "Mimosa.C08_succeeds",
    "Mimosa.C08_only_last_reference",
    "Mimosa.C08_number_reference_typeError",
    "Mimosa.C08_section_unchanged"
   ],
   "note": "Proved in full for strings with one reference, strings without resolvable references, non-strings, and the set of paths. With several references the code substitutes only one of them (C08_only_last_reference, C08_one_reference_substituted), and a reference to a parameter that is not a string raises TypeError (C08_number_reference_typeError)."
  },
  {
   "property": "C09",
   "status": "proved",
   "theorems": [
    "Mimosa.C09_same_values_same_result",
    "Mimosa.C09_permute_top",
    "Mimosa.C09_permute_section"
   ],
   "note": ""
  },
  {
   "property": "C10",
   "status": "proved",
   "theorems": [
    "Mimosa.C10_no_alias_left",
    "Mimosa.C10_no_alias_left_in_target",
    "Mimosa.C10_words_expanded",
    "Mimosa.C10_custom_replaced",
    "Mimosa.C10_quant"
   ],
   "note": ""
  },
  {
   "property": "C11",
   "status": "proved",
   "theorems": [
    "Mimosa.C11_defined",
    "Mimosa.C11_keeps_input",
    "Mimosa.C11_step",
    "Mimosa.C11_monotone",
    "Mimosa.C11_never_faster",
    "Mimosa.C11_constant",
    "Mimosa.C11_faster_before_2100"
   ],
   "note": ""
  },
  {
   "property": "C12",
   "status": "proved",
   "theorems": [
    "Mimosa.C12_time_grid",
    "Mimosa.C12_shortest",
    "Mimosa.C12_exact",
    "Mimosa.C12_year2100"
   ],
   "note": ""
  },
  {
   "property": "C13",
   "status": "proved",
   "theorems": [
    "Mimosa.C13_interp_exact",
    "Mimosa.C13_late_end_raises",
    "Mimosa.C13_data_year",
    "Mimosa.C13_example"
   ],
   "note": ""
  },
  {
   "property": "C14",
   "status": "proved",
   "theorems": [
    "Mimosa.C14_cache_transparent",
    "Mimosa.C14_queries"
   ],
   "note": ""
  },
  {
   "property": "C15",
   "status": "proved",
   "theorems": [
    "Mimosa.C15_unique_row",
    "Mimosa.C15_table",
    "Mimosa.C15_hash_alias",
    "Mimosa.C15_store_rows"
   ],
   "note": ""
  },
  {
   "property": "C16",
   "status": "proved",
   "theorems": [
    "Mimosa.C16_mean",
    "Mimosa.C16_mean_of_regions",
    "Mimosa.C16_unmapped",
    "Mimosa.C16_irrelevant_rows",
    "Mimosa.C16_first",
    "Mimosa.C16_same_type",
    "Mimosa.C16_mapper",
    "Mimosa.C16_both_directions",
    "Mimosa.C16_tables"
   ],
   "note": ""
  },
  {
   "property": "C17",
   "status": "proved",
   "theorems": [
    "Mimosa.C17_override_wins",
    "Mimosa.C17_file_otherwise",
    "Mimosa.C17_every_region",
    "Mimosa.C17_categories"
   ],
   "note": ""
  },
  {
   "property": "C18",
   "status": "proved",
   "theorems": [
    "Mimosa.C18_scalar",
    "Mimosa.C18_regional",
    "Mimosa.C18_timeandregional",
    "Mimosa.C18_unset",
    "Mimosa.C18_grid",
    "Mimosa.C18_custom",
    "Mimosa.C18_combined",
    "Mimosa.C18_nothing_undeclared"
   ],
   "note": ""
  },
  {
   "property": "C19",
   "status": "partial",
   "theorems": [
    "Mimosa.C19_unknown_module",
    "Mimosa.C19_builds_partial",
    "Mimosa.C19_globalcostpool_fails"
   ],
   "note": "Every accepted combination builds with distinct names except emissiontrade module 'globalcostpool', which the configuration accepts and which always fails on a duplicate constraint name (C19_globalcostpool_fails)."
  },
  {
   "property": "C20",
   "status": "partial",
   "theorems": [
    "Mimosa.C20_instance_well_scoped",
    "Mimosa.C20_instantiation_partial",
    "Mimosa.C20_overshoot_fails",
    "Mimosa.C20_percapconv_needs_trade",
    "Mimosa.C20_index_fails"
   ],
   "note": "Proved outside three configurations, each proved to fail: perc_reversible_damages < 1 with a carbon budget and a year from 2100 on (undeclared overshoot variable), per_cap_convergence without emission trade (undeclared allowances), and the non-increasing switch with a run whose year before the start is after 2100 (index -1)."
  },
  {
   "property": "C21",
   "status": "proved",
   "theorems": [
    "Mimosa.C21_temperature_target",
    "Mimosa.C21_carbon_budget",
    "Mimosa.C21_inertia",
    "Mimosa.C21_min_levels",
    "Mimosa.C21_non_increasing",
    "Mimosa.C21_net_zero",
    "Mimosa.C21_effort_sharing",
    "Mimosa.C21_in_instance"
   ],
   "note": ""
  },
  {
   "property": "C22",
   "status": "proved",
   "theorems": [
    "Mimosa.C22_switch_range",
    "Mimosa.C22_switch_strictMono",
    "Mimosa.C22_switch_mirror",
    "Mimosa.C22_switch_limits",
    "Mimosa.C22_soft_min_tight",
    "Mimosa.C22_soft_min_sharp",
    "Mimosa.C22_soft_min_strictMono",
    "Mimosa.C22_soft_max_tight",
    "Mimosa.C22_soft_max_strictMono",
    "Mimosa.C22_default_scales"
   ],
   "note": ""
  },
  {
   "property": "C23",
   "status": "proved",
   "theorems": [
    "Mimosa.C23_global_is_sum",
    "Mimosa.C23_abated_baseline",
    "Mimosa.C23_baseline",
    "Mimosa.C23_reductions"
   ],
   "note": ""
  },
  {
   "property": "C24",
   "status": "proved",
   "theorems": [
    "Mimosa.C24_trapezoidal",
    "Mimosa.C24_rectangular",
    "Mimosa.C24_nonneg",
    "Mimosa.C24_baseline_cumulative"
   ],
   "note": ""
  },
  {
   "property": "C25",
   "status": "proved",
   "theorems": [
    "Mimosa.C25_linear",
    "Mimosa.C25_at_least_initial",
    "Mimosa.C25_target",
    "Mimosa.C25_target_is_budget"
   ],
   "note": ""
  },
  {
   "property": "C26",
   "status": "proved",
   "theorems": [
    "Mimosa.C26_budget",
    "Mimosa.C26_budget_temperature"
   ],
   "note": ""
  },
  {
   "property": "C27",
   "status": "proved",
   "theorems": [
    "Mimosa.C27_regional_inertia",
    "Mimosa.C27_global_inertia"
   ],
   "note": ""
  },
  {
   "property": "C28",
   "status": "proved",
   "theorems": [
    "Mimosa.C28_global_min",
    "Mimosa.C28_regional_min",
    "Mimosa.C28_regional_min_global",
    "Mimosa.C28_abatement_bounds",
    "Mimosa.C28_emission_range"
   ],
   "note": ""
  },
  {
   "property": "C29",
   "status": "proved",
   "theorems": [
    "Mimosa.C29_non_increasing",
    "Mimosa.C29_non_increasing_global",
    "Mimosa.C29_net_zero",
    "Mimosa.C29_net_zero_cumulative",
    "Mimosa.C29_net_zero_needs_budget"
   ],
   "note": ""
  },
  {
   "property": "C30",
   "status": "proved",
   "theorems": [
    "Mimosa.C30_zero",
    "Mimosa.C30_marginal_zero",
    "Mimosa.C30_area_under_curve",
    "Mimosa.C30_derivative",
    "Mimosa.C30_strictMono",
    "Mimosa.C30_convex",
    "Mimosa.C30_strictConvex",
    "Mimosa.C30_marginal_strictMono",
    "Mimosa.C30_solution",
    "Mimosa.C30_price_determines_abatement",
    "Mimosa.C30_price_order"
   ],
   "note": ""
  },
  {
   "property": "C31",
   "status": "proved",
   "theorems": [
    "Mimosa.C31_learning_is_product",
    "Mimosa.C31_positive",
    "Mimosa.C31_over_time",
    "Mimosa.C31_over_time_antitone",
    "Mimosa.C31_by_doing_mono",
    "Mimosa.C31_by_doing_strictMono",
    "Mimosa.C31_at_most_one",
    "Mimosa.C31_doubling",
    "Mimosa.C31_no_learning"
   ],
   "note": ""
  },
  {
   "property": "C32",
   "status": "proved",
   "theorems": [
    "Mimosa.C32_no_abatement",
    "Mimosa.C32_emissions",
    "Mimosa.C32_no_damages_no_transfers",
    "Mimosa.C32_gdp",
    "Mimosa.C32_baseline"
   ],
   "note": ""
  },
  {
   "property": "C33",
   "status": "proved",
   "theorems": [
    "Mimosa.C33_costs",
    "Mimosa.C33_costs_notrade",
    "Mimosa.C33_area_nonneg",
    "Mimosa.C33_relative",
    "Mimosa.C33_global",
    "Mimosa.C33_global_between"
   ],
   "note": ""
  },
  {
   "property": "C34",
   "status": "proved",
   "theorems": [
    "Mimosa.C34_cost_balances_sum_zero",
    "Mimosa.C34_reduction_balances_sum_zero",
    "Mimosa.C34_allowances",
    "Mimosa.C34_allowances_sum",
    "Mimosa.C34_costs_sum",
    "Mimosa.C34_global_price",
    "Mimosa.C34_uniform_price",
    "Mimosa.C34_payment"
   ],
   "note": ""
  },
  {
   "property": "C35",
   "status": "proved",
   "theorems": [
    "Mimosa.C35_zero_sum",
    "Mimosa.C35_none_in_first_year",
    "Mimosa.C35_received_at_most_damages",
    "Mimosa.C35_paid_at_most_others_damages",
    "Mimosa.C35_relative",
    "Mimosa.C35_no_damages"
   ],
   "note": ""
  },
  {
   "property": "C36",
   "status": "proved",
   "theorems": [
    "Mimosa.C36_uses",
    "Mimosa.C36_net",
    "Mimosa.C36_net_ignoring_damages",
    "Mimosa.C36_world_net",
    "Mimosa.C36_world_consumption"
   ],
   "note": ""
  },
  {
   "property": "C37",
   "status": "proved",
   "theorems": [
    "Mimosa.C37_recursion",
    "Mimosa.C37_initial",
    "Mimosa.C37_explicit",
    "Mimosa.C37_unique",
    "Mimosa.C37_positive",
    "Mimosa.C37_gross_positive",
    "Mimosa.C37_production"
   ],
   "note": ""
  },
  {
   "property": "C38",
   "status": "proved",
   "theorems": [
    "Mimosa.C38_baseline_capital",
    "Mimosa.C38_reproduces_baseline",
    "Mimosa.C38_unique",
    "Mimosa.C38_gross_over_baseline"
   ],
   "note": ""
  },
  {
   "property": "C39",
   "status": "proved",
   "theorems": [
    "Mimosa.C39_below_total_ice",
    "Mimosa.C39_ice_monotone",
    "Mimosa.C39_total",
    "Mimosa.C39_initial",
    "Mimosa.C39_warmer",
    "Mimosa.C39_glacier_ice_left",
    "Mimosa.C39_greenland_ice_left",
    "Mimosa.C39_thermal_sum"
   ],
   "note": ""
  },
  {
   "property": "C40",
   "status": "proved",
   "theorems": [
    "Mimosa.C40_additive",
    "Mimosa.C40_zero_at_start",
    "Mimosa.C40_nodamage",
    "Mimosa.C40_temperature_damages",
    "Mimosa.C40_combined",
    "Mimosa.C40_unknown_form",
    "Mimosa.C40_unknown_form_no_instance"
   ],
   "note": ""
  },
  {
   "property": "C41",
   "status": "proved",
   "theorems": [
    "Mimosa.C41_logistic_exponent",
    "Mimosa.C41_logistic_monotone",
    "Mimosa.C41_logistic_bounded",
    "Mimosa.C41_logistic_capped",
    "Mimosa.C41_form_monotone",
    "Mimosa.C41_damages_monotone",
    "Mimosa.C41_warmer_more_damage",
    "Mimosa.C41_unused_coefficients"
   ],
   "note": ""
  },
  {
   "property": "C42",
   "status": "proved",
   "theorems": [
    "Mimosa.C42_equal_mitigation_costs",
    "Mimosa.C42_equal_total_costs",
    "Mimosa.C42_regime_adds_only_this",
    "Mimosa.C42_noregime_no_restriction"
   ],
   "note": ""
  },
  {
   "property": "C43",
   "status": "partial",
   "theorems": [
    "Mimosa.C43_shares_sum_one",
    "Mimosa.C43_interpolation",
    "Mimosa.C43_immediate",
    "Mimosa.C43_shares_nonneg",
    "Mimosa.C43_allowances",
    "Mimosa.C43_false_partial",
    "Mimosa.C43_false_is_not_grandfathering"
   ],
   "note": "Shares, interpolation, convergence and allowances are proved for every numeric convergence year. For percapconv_year = False the code does not stay at grandfathering (C43_false_is_not_grandfathering): a parameter object is compared with 'is False', which never holds; what happens instead is C43_false_partial."
  },
  {
   "property": "C44",
   "status": "proved",
   "theorems": [
    "Mimosa.C44_utility_strictMono",
    "Mimosa.C44_more_consumption_more_welfare",
    "Mimosa.C44_only_consumption_matters",
    "Mimosa.C44_welfare_loss_formula",
    "Mimosa.C44_cost_minimising_formula",
    "Mimosa.C44_cost_minimising_total",
    "Mimosa.C44_inequal_aversion_formula",
    "Mimosa.C44_reported_utility",
    "Mimosa.C44_single_region",
    "Mimosa.C44_utility_concave_iff",
    "Mimosa.C44_utility_concave",
    "Mimosa.C44_utility_not_concave",
    "Mimosa.C44_inequality_lowers_welfare",
    "Mimosa.C44_redistribution"
   ],
   "note": ""
  },
  {
   "property": "C45",
   "status": "proved",
   "theorems": [
    "Mimosa.C45_direction",
    "Mimosa.C45_optimal_of_instance",
    "Mimosa.C45_starts_at_zero",
    "Mimosa.C45_utility",
    "Mimosa.C45_globalcosts",
    "Mimosa.C45_optimum",
    "Mimosa.C45_more_welfare_better",
    "Mimosa.C45_pareto"
   ],
   "note": ""
  },
  {
   "property": "C46",
   "status": "proved",
   "theorems": [
    "Mimosa.C46_extension_years",
    "Mimosa.C46_feasible_iff",
    "Mimosa.C46_accepted_iff",
    "Mimosa.C46_unknown_constraint",
    "Mimosa.C46_solution",
    "Mimosa.C46_only_relaxes",
    "Mimosa.C46_regional_data_year",
    "Mimosa.C46_global_data_year",
    "Mimosa.C46_off",
    "Mimosa.C46_on"
   ],
   "note": ""
  },
  {
   "property": "C47",
   "status": "proved",
   "theorems": [
    "Mimosa.C47_accuracy",
    "Mimosa.C47_sign",
    "Mimosa.C47_year_exact",
    "Mimosa.C47_headers",
    "Mimosa.C47_regional_row",
    "Mimosa.C47_global_row",
    "Mimosa.C47_data_rows",
    "Mimosa.C47_computed_rows",
    "Mimosa.C47_nothing_else",
    "Mimosa.C47_unique",
    "Mimosa.C47_config_headers",
    "Mimosa.C47_config_unique"
   ],
   "note": ""
  },
  {
   "property": "C48",
   "status": "proved",
   "theorems": [
    "Mimosa.C48_normal_return",
    "Mimosa.C48_success",
    "Mimosa.C48_failure",
    "Mimosa.C48_solver_raises",
    "Mimosa.C48_history",
    "Mimosa.C48_no_solve",
    "Mimosa.C48_last_saved",
    "Mimosa.C48_file",
    "Mimosa.C48_saved_values",
    "Mimosa.C48_log_lines",
    "Mimosa.C48_log_history",
    "Mimosa.C48_param_file",
    "Mimosa.C48_param_file_written",
    "Mimosa.C48_save_unchecked"
   ],
   "note": ""
  },
  {
   "property": "C49",
   "status": "proved",
   "theorems": [
    "Mimosa.C49_path_feasible_exogenous",
    "Mimosa.C49_no_policy_feasible_exogenous",
    "Mimosa.C49_path_feasible_carbon_intensity",
    "Mimosa.C49_no_policy_feasible_carbon_intensity",
    "Mimosa.C49_no_policy_feasible"
   ],
   "note": "Both kinds of baseline. With exogenous baseline emissions the conditions are on the baseline path itself. With the carbon-intensity baseline emissions and GDP of a period determine each other; the fixed point is found by the intermediate value theorem, and the limits are asked of the economy without damages and costs, which bounds emissions from above (it always exists: favourable_exists). Effort-sharing regimes: none, or equal mitigation costs; the other two regimes can make the no-abatement path infeasible."
  },
  {
   "property": "C50",
   "status": "proved",
   "theorems": [
    "Mimosa.C50_budget",
    "Mimosa.C50_budget_off"
   ],
   "note": ""
  },
  {
   "property": "C51",
   "status": "proved",
   "theorems": [
    "Mimosa.C51_rewritten",
    "Mimosa.C51_unchanged",
    "Mimosa.C51_none_left",
    "Mimosa.C51_idempotent"
   ],
   "note": ""
  },
  {
   "property": "C52",
   "status": "proved",
   "theorems": [
    "Mimosa.C52_mortality",
    "Mimosa.C52_never_restricts"
   ],
   "note": ""
  },
  {
   "property": "C53",
   "status": "proved",
   "theorems": [
    "Mimosa.C53_completable",
    "Mimosa.C53_determined",
    "Mimosa.C53_objective"
   ],
   "note": ""
  },
  {
   "property": "C54",
   "status": "proved",
   "theorems": [
    "Mimosa.C54_emissions_carbon_intensity",
    "Mimosa.C54_costs_carbon_intensity",
    "Mimosa.C54_economy_carbon_intensity",
    "Mimosa.C54_objective_carbon_intensity",
    "Mimosa.C54_ordinary_feedback",
    "Mimosa.C54_baseline_exogenous",
    "Mimosa.C54_emissions",
    "Mimosa.C54_climate",
    "Mimosa.C54_damages",
    "Mimosa.C54_costs",
    "Mimosa.C54_economy",
    "Mimosa.C54_objective"
   ],
   "note": ""
  },
  {
   "property": "C55",
   "status": "proved",
   "theorems": [
    "Mimosa.C55_target",
    "Mimosa.C55_min_levels",
    "Mimosa.C55_climate"
   ],
   "note": ""
  },
  {
   "property": "C56",
   "status": "proved",
   "theorems": [
    "Mimosa.C56_float_setting",
    "Mimosa.C56_switch",
    "Mimosa.C56_regional_inertia",
    "Mimosa.C56_global_inertia"
   ],
   "note": ""
  },
  {
   "property": "C57",
   "status": "proved",
   "theorems": [
    "Mimosa.C57_ssp",
    "Mimosa.C57_initial_emissions"
   ],
   "note": ""
  },
  {
   "property": "C58",
   "status": "proved",
   "theorems": [
    "Mimosa.C58_replay",
    "Mimosa.C58_lost_digits",
    "Mimosa.C58_lost_example"
   ],
   "note": ""
  },
  {
   "property": "C59",
   "status": "proved",
   "theorems": [
    "Mimosa.C59_other_limits",
    "Mimosa.C59_still_feasible",
    "Mimosa.C59_optimum",
    "Mimosa.C59_not_binding"
   ],
   "note": ""
  },
  {
   "property": "C60",
   "status": "proved",
   "theorems": [
    "Mimosa.C60_region_order",
    "Mimosa.C60_optimal"
   ],
   "note": ""
  },
  {
   "property": "C61",
   "status": "proved",
   "theorems": [
    "Mimosa.C61_shorter_horizon"
   ],
   "note": ""
  },
  {
   "property": "C62",
   "status": "proved",
   "theorems": [
    "Mimosa.C62_trade_allowed",
    "Mimosa.C62_trade_optimum",
    "Mimosa.C62_transfers_allowed",
    "Mimosa.C62_transfers_optimum",
    "Mimosa.C62_single_region",
    "Mimosa.C62_single_region_transfers"
   ],
   "note": ""
  },
  {
   "property": "C63",
   "status": "proved",
   "theorems": [
    "Mimosa.C63_same_data",
    "Mimosa.C63_same_exception",
    "Mimosa.C63_same_model",
    "Mimosa.C63_same_solutions"
   ],
   "note": ""
  },
  {
   "property": "C64",
   "status": "proved",
   "theorems": [
    "Mimosa.C64_area_price",
    "Mimosa.C64_total_costs",
    "Mimosa.C64_cost_per_reduction",
    "Mimosa.C64_reduction_per_cost",
    "Mimosa.C64_cost_sign",
    "Mimosa.C64_reduction_sign",
    "Mimosa.C64_average_below_marginal",
    "Mimosa.C64_average_uniform_price",
    "Mimosa.C64_reciprocal",
    "Mimosa.C64_relative_cumulative",
    "Mimosa.C64_relative_cumulative_range",
    "Mimosa.C64_relative_cumulative_no_policy"
   ],
   "note": ""
  },
  {
   "property": "C65",
   "status": "proved",
   "theorems": [
    "Mimosa.C65_optimum_exists_exogenous",
    "Mimosa.C65_optimum_exists_carbon_intensity",
    "Mimosa.C65_limit_of_solutions",
    "Mimosa.C65_objective_bounded",
    "Mimosa.C65_no_policy_optimum"
   ],
   "note": ""
  },
  {
   "property": "C66",
   "status": "proved",
   "theorems": [
    "Mimosa.C66_nobody_richer",
    "Mimosa.C66_costs_make_worse",
    "Mimosa.C66_no_costs_optimal",
    "Mimosa.C66_optimum_no_costs",
    "Mimosa.C66_optimum_no_abatement",
    "Mimosa.C66_baseline_run"
   ],
   "note": ""
  },
  {
   "property": "C67",
   "status": "proved",
   "theorems": [
    "Mimosa.C67_modules",
    "Mimosa.C67_written",
    "Mimosa.C67_defaults",
    "Mimosa.C67_effect"
   ],
   "note": ""
  },
  {
   "property": "C68",
   "status": "proved",
   "theorems": [
    "Mimosa.C68_same_policy",
    "Mimosa.C68_policy_possible",
    "Mimosa.C68_optimum",
    "Mimosa.C68_same_policy_trade",
    "Mimosa.C68_policy_possible_trade",
    "Mimosa.C68_optimum_trade"
   ],
   "note": ""
  },
  {
   "property": "C69",
   "status": "proved",
   "theorems": [
    "Mimosa.C69_temperature_damages",
    "Mimosa.C69_sea_level_damages",
    "Mimosa.C69_abatement_costs",
    "Mimosa.C69_initial_capital",
    "Mimosa.C69_mortality",
    "Mimosa.C69_numbers",
    "Mimosa.C69_forms",
    "Mimosa.C69_combined"
   ],
   "note": ""
  },
  {
   "property": "C70",
   "status": "proved",
   "theorems": [
    "Mimosa.C70_settings_unused",
    "Mimosa.C70_scale_zero",
    "Mimosa.C70_nodamage_is_scale_zero",
    "Mimosa.C70_ignored",
    "Mimosa.C70_ignored_conversely",
    "Mimosa.C70_optimum",
    "Mimosa.C70_ignored_optimum"
   ],
   "note": ""
  },
  {
   "property": "C71",
   "status": "proved",
   "theorems": [
    "Mimosa.C71_same_pathways",
    "Mimosa.C71_ranking",
    "Mimosa.C71_cheapest",
    "Mimosa.C71_best_by_own_measure"
   ],
   "note": ""
  },
  {
   "property": "C72",
   "status": "proved",
   "theorems": [
    "Mimosa.C72_same_policy",
    "Mimosa.C72_policy_possible",
    "Mimosa.C72_optimum",
    "Mimosa.C72_same_policy_trade",
    "Mimosa.C72_policy_possible_trade",
    "Mimosa.C72_optimum_trade"
   ],
   "note": ""
  },
  {
   "property": "C73",
   "status": "proved",
   "theorems": [
    "Mimosa.C73_consistent",
    "Mimosa.C73_consistent_exogenous",
    "Mimosa.C73_accepted",
    "Mimosa.C73_constraints",
    "Mimosa.C73_restored",
    "Mimosa.C73_nothing_lost",
    "Mimosa.C73_rejected",
    "Mimosa.C73_optimum",
    "Mimosa.C73_after_solve",
    "Mimosa.C73_restoring_needed",
    "Mimosa.C73_bounds_of_fixed_variables_lost"
   ],
   "note": ""
  },
  {
   "property": "C74",
   "status": "proved",
   "theorems": [
    "Mimosa.C74_climate",
    "Mimosa.C74_damages",
    "Mimosa.C74_costs",
    "Mimosa.C74_economy",
    "Mimosa.C74_economy_carbon_intensity",
    "Mimosa.C74_costs_carbon_intensity"
   ],
   "note": ""
  },
  {
   "property": "C75",
   "status": "proved",
   "theorems": [
    "Mimosa.C75_lower_costs_richer",
    "Mimosa.C75_lower_costs_better",
    "Mimosa.C75_scaled_down",
    "Mimosa.C75_target_binds",
    "Mimosa.C75_budget_spent"
   ],
   "note": ""
  },
  {
   "property": "C76",
   "status": "proved",
   "theorems": [
    "Mimosa.C76_region_names",
    "Mimosa.C76_optimal",
    "Mimosa.C76_unused_data",
    "Mimosa.C76_exchange",
    "Mimosa.C76_unique_optimum",
    "Mimosa.C76_twins",
    "Mimosa.C76_twins_economy"
   ],
   "note": ""
  },
  {
   "property": "C77",
   "status": "proved",
   "theorems": [
    "Mimosa.C77_no_cheaper_path",
    "Mimosa.C77_least_cost",
    "Mimosa.C77_each_year",
    "Mimosa.C77_price_order",
    "Mimosa.C77_equal_prices",
    "Mimosa.C77_one_price"
   ],
   "note": ""
  },
  {
   "property": "C78",
   "status": "proved",
   "theorems": [
    "Mimosa.C78_run_exists",
    "Mimosa.C78_near_baseline",
    "Mimosa.C78_negligible_costs",
    "Mimosa.C78_temperature",
    "Mimosa.C78_configured"
   ],
   "note": ""
  },
  {
   "property": "C79",
   "status": "proved",
   "theorems": [
    "Mimosa.C79_file_roundtrip",
    "Mimosa.C79_parameters",
    "Mimosa.C79_same_model",
    "Mimosa.C79_from_file",
    "Mimosa.C79_two_references",
    "Mimosa.C79_integer_keys"
   ],
   "note": ""
  },
  {
   "property": "C80",
   "status": "proved",
   "theorems": [
    "Mimosa.C80_share",
    "Mimosa.C80_no_2020",
    "Mimosa.C80_accuracy",
    "Mimosa.C80_between",
    "Mimosa.C80_relative_accuracy",
    "Mimosa.C80_no_costs",
    "Mimosa.C80_compare",
    "Mimosa.C80_reported"
   ],
   "note": ""
  },
  {
   "property": "C81",
   "status": "proved",
   "theorems": [
    "Mimosa.C81_evaluable",
    "Mimosa.C81_start_within_bounds",
    "Mimosa.C81_start",
    "Mimosa.C81_gdp_needed",
    "Mimosa.C81_abatement_needed"
   ],
   "note": ""
  },
  {
   "property": "C82",
   "status": "proved",
   "theorems": [
    "Mimosa.C82_order",
    "Mimosa.C82_exact",
    "Mimosa.C82_six_digits",
    "Mimosa.C82_budget",
    "Mimosa.C82_temperature_target",
    "Mimosa.C82_minimum_levels",
    "Mimosa.C82_abatement",
    "Mimosa.C82_equal_mitigation_costs",
    "Mimosa.C82_equal_total_costs",
    "Mimosa.C82_equal_total_costs_relative",
    "Mimosa.C82_per_capita",
    "Mimosa.C82_allowances",
    "Mimosa.C82_config_budget"
   ],
   "note": ""
  },
  {
   "property": "C83",
   "status": "proved",
   "theorems": [
    "Mimosa.C83_at_most",
    "Mimosa.C83_at_least_with_costs",
    "Mimosa.C83_at_least",
    "Mimosa.C83_seven_percent",
    "Mimosa.C83_optimum"
   ],
   "note": ""
  },
  {
   "property": "C84",
   "status": "proved",
   "theorems": [
    "Mimosa.C84_mixture",
    "Mimosa.C84_mixture_better",
    "Mimosa.C84_unique",
    "Mimosa.C84_others_worse",
    "Mimosa.C84_same_outcome",
    "Mimosa.C84_local_is_global"
   ],
   "note": ""
  },
  {
   "property": "C85",
   "status": "proved",
   "theorems": [
    "Mimosa.C85_between",
    "Mimosa.C85_optimum",
    "Mimosa.C85_budget_increasingly_dear",
    "Mimosa.C85_target_increasingly_dear"
   ],
   "note": ""
  },
  {
   "property": "C86",
   "status": "proved",
   "theorems": [
    "Mimosa.C86_numbers",
    "Mimosa.C86_switches",
    "Mimosa.C86_regime",
    "Mimosa.C86_limits",
    "Mimosa.C86_years",
    "Mimosa.C86_default_years",
    "Mimosa.C86_regions",
    "Mimosa.C86_default_regions",
    "Mimosa.C86_quantities",
    "Mimosa.C86_admissible",
    "Mimosa.C86_setting",
    "Mimosa.C86_one_optimum"
   ],
   "note": ""
  },
  {
   "property": "C87",
   "status": "proved",
   "theorems": [
    "Mimosa.C87_recombine",
    "Mimosa.C87_best_future",
    "Mimosa.C87_best_past",
    "Mimosa.C87_optima_recombine",
    "Mimosa.C87_same_policy_same_state",
    "Mimosa.C87_stay_the_course"
   ],
   "note": ""
  },
  {
   "property": "C88",
   "status": "proved",
   "theorems": [
    "Mimosa.C88_revealed",
    "Mimosa.C88_no_shift",
    "Mimosa.C88_sooner",
    "Mimosa.C88_value",
    "Mimosa.C88_costs"
   ],
   "note": ""
  },
  {
   "property": "C89",
   "status": "proved",
   "theorems": [
    "Mimosa.C89_more_ambitious",
    "Mimosa.C89_less_damage",
    "Mimosa.C89_join",
    "Mimosa.C89_most_ambitious",
    "Mimosa.C89_meets_iff",
    "Mimosa.C89_attainable",
    "Mimosa.C89_jointly",
    "Mimosa.C89_lowest_target",
    "Mimosa.C89_combinable"
   ],
   "note": ""
  },
  {
   "property": "C90",
   "status": "proved",
   "theorems": [
    "Mimosa.C90_same_climate",
    "Mimosa.C90_same_damages",
    "Mimosa.C90_baseline",
    "Mimosa.C90_without_trapezoid",
    "Mimosa.C90_raises_iff"
   ],
   "note": ""
  },
  {
   "property": "C91",
   "status": "proved",
   "theorems": [
    "Mimosa.C91_costs_follow_gdp",
    "Mimosa.C91_all_or_none",
    "Mimosa.C91_all_abate",
    "Mimosa.C91_equal_loss",
    "Mimosa.C91_no_gain",
    "Mimosa.C91_excess_is_bought"
   ],
   "note": ""
  },
  {
   "property": "C92",
   "status": "proved",
   "theorems": [
    "Mimosa.C92_emissions",
    "Mimosa.C92_cumulative",
    "Mimosa.C92_budget_out_of_reach",
    "Mimosa.C92_target_out_of_reach",
    "Mimosa.C92_earliest_zero",
    "Mimosa.C92_net_zero_out_of_reach"
   ],
   "note": ""
  },
  {
   "property": "C93",
   "status": "proved",
   "theorems": [
    "Mimosa.C93_cheaper_abatement",
    "Mimosa.C93_never_harmed"
   ],
   "note": ""
  }
 ]
}