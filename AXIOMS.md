# Axioms of the theorems

Generated by `tools/gen_axioms.py` from `#print axioms`.

## none (10 theorems)

`C06_source`, `C07_undrawn`, `C08_read`, `C15_shared_secondary_goes_stale`, `C56_context`, `C61_refused`, `SynthDisplayExample.C69_violated_default`, `C81_meaning`, `C84_demo_unobserved`, `C84_demo2_no_secondary`

## propext (52 theorems)

`C01_reads_are_silent`, `C04_violated_guard_never_fires`, `C04_at_most_one_accepted_partial`, `C04_last_touched_normalization_wins`, `C07_length_mismatch`, `C08_reset`, `C11_bernoulli_extremes`, `C12_violated_attach_after_draw`, `C13_no_redraw`, `C16_name_collision_loses_report`, `C16_empty_name_loses_report`, `C19_violated_shared_selector`, `C21_spatial_forgets_partial`, `C23_violated_unity`, `SurveyExample.C25_violated_stale_mask`, `SurveyExample.C25_violated_other_size`, `C26_violated_example`, `C37_violated_int`, `C37_violated_int_single`, `C39_dictionary`, `C41_violated_derived`, `C41_violated_inherited`, `C41_violated_flags`, `C41_violated_namesakes`, `C43_violated_first`, `SurveyExample.C58_violated_deep`, `SurveyExample.C58_violated_spatial_default`, `C59_exports_partial`, `C61_clean_is_not_reset`, `C61_sampler_selection`, `C62_length`, `C62_exact`, `C62_unobserved`, `C62_default_values`, `C62_hidden`, `C62_probability`, `C64_violated_circle`, `FailureExample.C65_violated_stale`, `FailureExample.C65_violated_repair`, `C67_arrow_tips`, `C67_display`, `RebuildExample.C68_violated_shared`, `C69_repr_raises`, `SynthDisplayExample.C69_violated_print`, `C70_file_kept`, `SettingsExample.C70_violated_level`, `C85_stan`, `C89_copy`, `C89_violated_concatenate`, `C89_violated_joined_copy`, `C89_plain`, `C105_no_flag`

## Quot.sound, propext (158 theorems)

`C02_rejected_changes_nothing`, `C02_incomparable_rejected`, `C03_fix_is_shared_by_all_instances`, `C05_lower`, `C05_upper`, `C05_box`, `C05_unset_boundary`, `C05_box_is_conjunction`, `C06_no_source_raises`, `C07_add`, `C07_addAll`, `C07_order_irrelevant`, `C07_unity_neutral`, `C08_mask_kept_until_reset`, `C08_first_select_draws`, `C08_failed_draw`, `C08_sampled_has_mask`, `C09_index_partition`, `C09_nSelected_counts`, `C10_distance`, `C10_galactic`, `C10_needs_distribution`, `C11_bernoulli_progress_irrelevant`, `C12_draw_exact`, `C12_draw_all_partial`, `C12_all_hold_n`, `C12_unreachable_untouched`, `C12_cycle_never_returns`, `C12_draws_keep_dependencies_sampled`, `C12_attach`, `C12_built_graphs`, `C12_builtin_selectable`, `C13_values_survive`, `C13_shared_values`, `C14_unobserved_equals_true`, `C14_unassigned_never_drawn`, `C14_raising_never_drawn`, `C15_reset`, `C15_redraw_after_reset`, `C16_reports`, `C16_probability`, `C17_draw_positions`, `C17_draw_luminosity`, `C17_violated_deep_luminosity`, `C18_lengths`, `SurveyExample.C21_violated_leftover`, `C21_reproducible_partial`, `SurveyExample.C21_violated_numba`, `C22_no_sigma`, `C22_lengths`, `C24_builtin_selections`, `C24_no_source`, `C24_derived_only`, `C25_clean_partial`, `SurveyExample.C25_violated_clean_spaces`, `C26_violated_no_known`, `C27_parameters_kept_partial`, `C27_count_keeps_parameters_partial`, `C29_step`, `C30_has_detections`, `C33_protected_partial`, `C33_violated_method`, `C33_fixed_names`, `C35_values`, `C35_refused_broadcast`, `C42_sections`, `C42_unchanged_partial`, `C42_violated`, `C44_complete_partial`, `C44_sound`, `C44_again`, `C44_returns`, `C44_violated_nested`, `C44_violated_noLuminosity`, `C44_violated_stale`, `C44_violated_clean`, `C44_violated_derived`, `C44_violated_distance`, `C45_returns_only_accepted`, `C45_first_accepted`, `C45_no_density_never_returns`, `C45_draw_distance`, `C46_progress_irrelevant_partial`, `C46_progress_irrelevant_classes_partial`, `C52_drawn`, `C52_drawn_error`, `C56_activate_partial`, `C56_activate_noSwitch`, `C56_violated_progress`, `C56_violated_dev`, `C56_violated_twice`, `C56_setup`, `C57_calls`, `C59_violated`, `C59_violated_param`, `C59_violated_spatial_param`, `C59_violated_space`, `C60_positions`, `C60_luminosities`, `C60_fluxes`, `C60_parameters`, `C61_clean_keeps`, `C62_true_broken`, `C62_observed`, `C62_sigma_recorded`, `C62_within_limits`, `C62_limits_ordered`, `C62_violated_broken_power_law`, `C63_unique`, `C65_draw`, `C65_retry`, `C65_survey`, `C65_selection_raises`, `C67_catalog`, `C68_objects`, `C68_same_dict`, `C68_dict_in_memory`, `C69_sections`, `C69_once`, `C69_same_values`, `C69_observed`, `C69_complete_partial`, `C70_merge`, `C70_accepted`, `C70_written`, `C81_violated`, `C81_nonclass`, `C81_recorded`, `C81_hook`, `C81_violated_inherited`, `C82_violated_date`, `C83_abstract`, `C83_constructors`, `C86_missing`, `C86_distribution`, `C86_seed`, `C86_no_spatial`, `C86_no_luminosity`, `C86_rate`, `C86_parameter`, `C86_without_luminosity`, `C86_samplers`, `C86_entry`, `C86_entry_keys`, `C86_type`, `C86_init`, `C86_sampler_selection`, `C86_sampler_parameter`, `C86_sampler_selection_parameter`, `C86_secondary`, `C89_values`, `C89_sort_iff`, `C89_repeat`, `C89_violated_sort`, `C91_read`, `C104_violated_lines`, `C105_default`, `C105_missing`

## Classical.choice, Quot.sound, propext (506 theorems)

`C01_read_is_last_accepted`, `C02_accepted_iff`, `C02_accepted_value_is_read`, `C02_stored_values_in_bounds`, `C03_no_interference`, `C10_galactic_abs`, `C10_galactic_real`, `C11_soft_draw`, `C11_softLog`, `C11_softLin`, `C11_soft_strength_zero`, `C11_soft_tends_to_hard`, `C11_trials`, `C12_draw_returns`, `C15_reset_returns`, `C16_collect_returns`, `C16_survey`, `C17_survey_positions`, `C17_survey_luminosity_partial`, `C19_selected_iff`, `C19_hard_flux`, `C20_partition`, `C21_leftovers_partial`, `C21_redraw_partial`, `C22_noise_partial`, `C22_violated_unity`, `C22_positive`, `C22_finite`, `C23_product_partial`, `C24_returns`, `C24_iff`, `C25_violated_second_draw`, `C27_norm_recorded`, `C27_violated_untouched_default`, `C27_violated_exception_leaves_one`, `C27_violated_unset_becomes_one`, `C28_expected_count`, `C28_probability_density_partial`, `C28_exact_integral`, `C28_builtin_expected_count`, `C28_violated_rejected_assignment`, `C28_violated_rejected_assignment_reachable`, `C28_violated_silent_sampling`, `C28_violated_unflagged`, `C29_sequence`, `C30_construction`, `C30_counts`, `C31_stan_partial`, `C31_violated_name`, `C32_violated_write`, `C32_objects_partial`, `C32_violated_known`, `C34_split`, `C34_getitem_aligned`, `C34_getitem_mask`, `C34_ints`, `C34_slice`, `C34_slice_back`, `C35_refused`, `C35_commutes`, `C36_effect`, `C36_violated`, `C36_violated_aliased`, `C36_observed_partial`, `C37_twice_partial`, `C37_violated_float`, `C38_roundtrip_partial`, `C38_refused`, `C38_violated_fill`, `C38_violated_bytes`, `C38_violated_empty`, `C39_reload_partial`, `C39_violated_direction`, `C39_violated_flags`, `C40_roundtrip_partial`, `C40_groups`, `C40_violated_probability`, `C40_violated_forms`, `C40_violated_unset`, `C40_violated_synth`, `C41_roundtrip_partial`, `C41_violated`, `C43_order_partial`, `C43_violated_order`, `C43_violated_derived`, `C45_acceptance_probability`, `C45_accepted_law`, `C45_proportional_iff_bound`, `C45_violated_grid_maximum`, `C46_violated_normalized`, `C47_density`, `C47_array`, `C47_weights`, `C47_phi`, `C47_violated_int`, `C48_inverse`, `C48_law`, `C48_violated_minusOne`, `C49_inverse`, `C50_pareto_partial`, `C50_pareto_draw_partial`, `C50_violated_pareto_index`, `C50_violated_pareto_int`, `C50_schechter_partial`, `C50_schechter_draw_partial`, `C50_violated_schechter`, `C50_logNormal_partial`, `C50_violated_width`, `C50_log10Normal_partial`, `C50_violated_log10`, `C50_logUniform_partial`, `C50_violated_logUniform`, `C50_bpl_partial`, `C50_delta`, `C51_inside`, `C51_normal`, `C51_logNormal_partial`, `C51_violated_zero`, `C51_zero_width`, `C51_violated_zero_covers`, `C51_log10_partial`, `C51_violated_log10_above`, `C51_violated_log10_empty`, `C51_violated_log10_below`, `C52_range`, `C52_isotropic`, `C52_xyz`, `C52_viewing_partial`, `C52_violated_viewing_zero`, `C52_ra_sampler`, `C52_violated_dec_sampler`, `C52_spiral_partial`, `C52_violated_spiral`, `C52_drawn_positions`, `C53_luminosity_distance`, `C53_comoving_distance`, `C53_volume`, `C53_no_matter`, `C54_spherical`, `C54_cosmological_partial`, `C54_violated_zero`, `C54_violated_flatland`, `C55_sphericalPopulation`, `C55_zpowerSphericalPopulation`, `C55_zpowerCosmoPopulation`, `C55_sfrPopulation`, `C55_mwRadialPopulation`, `C55_bplHomogeneousSphericalPopulation`, `C55_bplZPowerSphericalPopulation`, `C55_bplZPowerCosmoPopulation`, `C55_bplSFRPopulation`, `C55_logNormalHomogeneousSphericalPopulation`, `C55_logNormalZPowerSphericalPopulation`, `C55_logNormalZPowerCosmoPopulation`, `C55_logNormalSFRPopulation`, `C55_log10NormalHomogeneousSphericalPopulation`, `C55_log10NormalZPowerSphericalPopulation`, `C55_log10NormalZPowerCosmoPopulation`, `C55_log10NormalSFRPopulation`, `C55_paretoHomogeneousSphericalPopulation`, `C55_paretoZPowerSphericalPopulation`, `C55_paretoZPowerCosmoPopulation`, `C55_paretoSFRPopulation`, `C55_schechterHomogeneousSphericalPopulation`, `C55_schechterZPowerSphericalPopulation`, `C55_schechterZPowerCosmoPopulation`, `C55_schechterSFRPopulation`, `C56_warnings_partial`, `C56_violated_warnings`, `C56_modes`, `C56_warnings_only`, `C56_violated_silence`, `C57_grid`, `C57_accepted`, `C57_stan_partial`, `C57_violated_name`, `C58_truth_lookup`, `C58_survey_partial`, `C60_derived_luminosities`, `C60_distance_mask`, `C60_positive_fluxes`, `C60_horizon`, `C61_setup`, `C61_sampler_survey`, `C62_true`, `C62_recorded`, `C62_works`, `C62_defaults`, `C62_missing`, `C62_limits_needed`, `C62_names`, `C62_by_name`, `C62_by_name_broken`, `C63_reads`, `C63_succeeds`, `C64_distributions`, `C64_selections`, `C64_selection_flags`, `C64_samplers`, `C64_bases`, `C64_defaults`, `C64_parameters`, `C64_roundtrip_partial`, `C64_reread`, `C64_proper`, `C64_unregistered`, `C64_violated_sky`, `C64_violated_base`, `C64_violated_flux`, `C64_violated_flux_roundtrip`, `C64_selection_declarations`, `C64_population_declarations`, `C64_sampler_declarations`, `C64_spatial_declarations`, `C65_reset`, `C66_count`, `C66_ball`, `C66_constant`, `C66_flatland`, `C66_cosmological`, `C66_volume`, `C66_violated_sky`, `C66_rate`, `C66_violated_local`, `C66_violated_limits`, `C67_detected`, `C67_true_drawn`, `C67_limits`, `C67_violated_true`, `C67_fluxes`, `C67_violated_arrows`, `C67_luminosities`, `C67_distances`, `C67_repr`, `C67_colours`, `C67_colours_positive`, `C67_colours_unit`, `C67_sphere`, `C67_violated_figure`, `C68_configured`, `C68_rebuilt_partial`, `C69_values`, `C69_rows`, `SynthDisplayExample.C69_violated_hidden`, `SynthDisplayExample.C69_violated_secondary`, `C70_settings`, `C70_defaults`, `C70_usable_partial`, `C71_roundtrip`, `C71_arguments`, `C71_survey`, `C71_in_memory`, `C71_names`, `C71_in_memory_builtin`, `C72_detects`, `C72_known`, `C72_violated_distance`, `C73_rejection_sample`, `C73_draw_distance`, `C73_draw_distance_exact`, `C73_exact_iff`, `C73_sphere`, `C73_draw_distance_iff`, `C73_normalized_law`, `C73_normalized`, `C73_violated_silent`, `C73_sky`, `C73_positions`, `C73_violated_grid`, `C74_detects_all`, `C74_detects_hard`, `C74_detects_upper`, `C74_detects_box`, `C74_detects_soft`, `C74_detects_coin`, `C74_catalogue`, `C74_given_number`, `C75_thinning`, `C75_counts`, `C75_nothing_detected`, `C76_survey`, `C76_pareto`, `C76_schechter`, `C76_logNormal`, `C76_log10Normal_partial`, `C76_violated_log10`, `C76_logUniform`, `C76_delta`, `C76_bpl`, `C77_counts`, `C77_flux_limit`, `C78_counts`, `C78_survey`, `C78_violated_euclid`, `C79_normal`, `C79_logNormal`, `C79_log10Normal`, `C79_delta`, `C79_truncNormal`, `C79_truncLogNormal_partial`, `C79_violated_truncLog_zero`, `C79_truncLog10Normal_partial`, `C79_violated_truncLog10`, `C79_pareto`, `C79_powerLaw`, `C79_viewingAngle`, `C79_ra`, `C79_dec`, `C79_bpl`, `C79_errors`, `C79_truncLog10_zero_partial`, `C79_violated_truncLog10_zero`, `C79_violated_truncLog10_below`, `C80_catalogue`, `C80_given_number`, `C80_builtin_plays`, `C80_chooses_all`, `C80_chooses_lower`, `C80_chooses_upper`, `C80_chooses_box`, `C80_chooses_soft`, `C80_chooses_coin`, `C80_selects`, `C80_thinning`, `C80_counts`, `C80_unselective`, `C81_subclass_partial`, `C82_match`, `C82_parse`, `C82_untagged`, `C82_names`, `C82_release`, `C82_plus`, `C82_checkout`, `C82_violated_plus`, `C82_violated_empty`, `C82_violated_escape`, `C82_pre`, `C82_long`, `C82_describe`, `C82_post`, `C82_release_styles`, `C82_untagged_texts`, `C82_tagged_texts`, `C82_report`, `C82_date`, `C82_archive`, `C82_violated_branch`, `C82_directory`, `C83_registry`, `C83_raises`, `C83_duties`, `C83_usable`, `C83_package`, `C83_user`, `C83_violated_replaced`, `C83_violated_unnamed`, `C84_demo2_secondary`, `C84_demo2_positions`, `C84_demo2_dark`, `C84_demo_widths`, `C84_family`, `C84_attached`, `C84_derived`, `C84_distribution`, `C84_demo`, `C84_demo2`, `C84_demo2_observation`, `C84_demo2_luminosity`, `C84_picks_all`, `C84_picks_lower`, `C84_picks_upper`, `C84_picks_box`, `C84_picks_soft`, `C84_picks_coin`, `C84_builtin`, `C84_catalogue`, `C84_given_number`, `C84_thinning`, `C84_counts`, `C84_classes`, `C85_missing_link`, `C85_array_for_group`, `C85_group_for_array`, `C85_extra`, `C85_violated_known`, `C85_group_for_optional`, `C85_missing_probability`, `C85_missing_lf`, `C85_violated_lf`, `C85_missing_attribute`, `C85_constructor`, `C85_length`, `C85_write`, `C86_selection`, `C86_selection_parameter`, `C86_without_selection`, `C87_counts`, `C87_sphere`, `C87_noisy`, `C87_flatland`, `C88_marks`, `C88_processes`, `C88_counts`, `C88_fails`, `C88_violated_coin`, `C89_getitem`, `C89_take`, `C90_count`, `C90_distance`, `C90_violated_low`, `C90_volume`, `C90_flux`, `C91_write`, `C91_violated_lost`, `C91_roundtrip_partial`, `C91_builtin`, `C91_ready_made`, `C91_violated_order`, `C91_violated_lowercase`, `C91_violated_numpy`, `C91_rewritten_partial`, `C91_builtin_rewritten`, `C92_luminosity`, `C92_distance`, `C92_fluxes`, `C92_selections`, `C92_average_luminosity`, `C92_average_distance`, `C93_luminosities`, `C93_sums`, `C93_unbiased`, `C93_violated_textbook`, `C94_uniform`, `C94_half`, `C94_violated_textbook`, `C95_errors`, `C95_gain`, `C95_gain_strict`, `C95_loss`, `C95_survey`, `C96_fluxes`, `C96_half`, `C96_selections`, `C97_correlation`, `C97_selections`, `C97_fluxes`, `C98_command`, `C98_pieces`, `C98_no_git`, `C98_checkout`, `C98_violated_decode`, `C98_keywords`, `C98_archive`, `C98_no_file`, `C98_violated_comment`, `C98_violated_missing`, `C98_regex`, `C98_any_file`, `C98_which_git`, `C99_luminosities`, `C99_distances`, `C99_unbiased`, `C99_unbiased_distances`, `C99_total`, `C99_sphere`, `C100_selected`, `C100_selected_values`, `C100_unrelated`, `C100_values`, `C100_additive`, `C101_kept`, `C101_succeeds`, `C101_raises`, `C101_again`, `C101_processes`, `C101_after`, `C101_violated_race`, `C102_found`, `C102_superposition`, `C102_numbers`, `C102_degenerate`, `C102_parts`, `C103_completeness`, `C103_unbiased`, `C103_only`, `C103_flux_weights`, `C104_levels`, `C104_console`, `C104_reset`, `C104_console_unique`, `C104_user`, `C104_dev`, `C104_files`, `C105_draw`, `C105_logarithm`, `C105_units_log`, `C105_units_lin`, `C105_units_matter`, `C106_configured`, `C106_configured_fluxes`, `C106_configured_noisy`, `C106_histogram`, `C106_distances`, `C106_fluxes`, `C106_quantities`
