{
 "claims": [
  {
   "property": "C01",
   "status": "proved",
   "theorems": [
    "Popsynth.C01_read_is_last_accepted",
    "Popsynth.C01_reads_are_silent"
   ],
   "note": "Every history of reads/assignments/fix toggles; number type arbitrary."
  },
  {
   "property": "C02",
   "status": "proved",
   "theorems": [
    "Popsynth.C02_accepted_iff",
    "Popsynth.C02_accepted_value_is_read",
    "Popsynth.C02_rejected_changes_nothing",
    "Popsynth.C02_stored_values_in_bounds",
    "Popsynth.C02_incomparable_rejected"
   ],
   "note": "Acceptance iff free and within bounds; NaN covered as incomparable value."
  },
  {
   "property": "C03",
   "status": "proved",
   "theorems": [
    "Popsynth.C03_no_interference",
    "Popsynth.C03_fix_is_shared_by_all_instances"
   ],
   "note": "Instances do not interfere; fixing is shared by the class."
  },
  {
   "property": "C04",
   "status": "partial",
   "theorems": [
    "Popsynth.C04_violated_guard_never_fires",
    "Popsynth.C04_at_most_one_accepted_partial",
    "Popsynth.C04_last_touched_normalization_wins"
   ],
   "note": "Violated: the class-creation guard never fires (norm_counter is never incremented), so a class with two normalization parameters is accepted. Proved: what a working guard would accept (partial) and which parameter ends up as normalization."
  },
  {
   "property": "C05",
   "status": "proved",
   "theorems": [
    "Popsynth.C05_lower",
    "Popsynth.C05_upper",
    "Popsynth.C05_box",
    "Popsynth.C05_unset_boundary",
    "Popsynth.C05_box_is_conjunction"
   ],
   "note": "For arbitrary decidable <=, NaN included."
  },
  {
   "property": "C06",
   "status": "proved",
   "theorems": [
    "Popsynth.C06_source",
    "Popsynth.C06_no_source_raises"
   ],
   "note": "All 16 flag combinations; missing source raises and changes neither mask nor random state."
  },
  {
   "property": "C07",
   "status": "proved",
   "theorems": [
    "Popsynth.C07_add",
    "Popsynth.C07_addAll",
    "Popsynth.C07_order_irrelevant",
    "Popsynth.C07_unity_neutral",
    "Popsynth.C07_length_mismatch",
    "Popsynth.C07_undrawn"
   ],
   "note": "Any number of selections, order and repetition irrelevant."
  },
  {
   "property": "C08",
   "status": "proved",
   "theorems": [
    "Popsynth.C08_mask_kept_until_reset",
    "Popsynth.C08_first_select_draws",
    "Popsynth.C08_failed_draw",
    "Popsynth.C08_reset",
    "Popsynth.C08_read",
    "Popsynth.C08_sampled_has_mask"
   ],
   "note": "All histories of select/reset/set_*."
  },
  {
   "property": "C09",
   "status": "proved",
   "theorems": [
    "Popsynth.C09_index_partition",
    "Popsynth.C09_nSelected_counts"
   ],
   "note": ""
  },
  {
   "property": "C10",
   "status": "proved",
   "theorems": [
    "Popsynth.C10_distance",
    "Popsynth.C10_galactic",
    "Popsynth.C10_needs_distribution",
    "Popsynth.C10_galactic_abs",
    "Popsynth.C10_galactic_real"
   ],
   "note": "Galactic latitude itself comes from astropy and is an input of the model."
  },
  {
   "property": "C11",
   "status": "proved",
   "theorems": [
    "Popsynth.C11_bernoulli_progress_irrelevant",
    "Popsynth.C11_bernoulli_extremes",
    "Popsynth.C11_soft_draw",
    "Popsynth.C11_softLog",
    "Popsynth.C11_softLin",
    "Popsynth.C11_soft_strength_zero",
    "Popsynth.C11_soft_tends_to_hard",
    "Popsynth.C11_trials"
   ],
   "note": "Bernoulli trials are an arbitrary function of probability and random state; scipy's batch draw is modelled as sequential draws (trusted). Logistic formula over the reals. C11_trials says what the trials are: one per probability, in order, each from the random numbers the one before left."
  },
  {
   "property": "C12",
   "status": "partial",
   "theorems": [
    "Popsynth.C12_draw_exact",
    "Popsynth.C12_draw_all_partial",
    "Popsynth.C12_all_hold_n",
    "Popsynth.C12_unreachable_untouched",
    "Popsynth.C12_cycle_never_returns",
    "Popsynth.C12_draw_returns",
    "Popsynth.C12_draws_keep_dependencies_sampled",
    "Popsynth.C12_violated_attach_after_draw",
    "Popsynth.C12_attach",
    "Popsynth.C12_built_graphs",
    "Popsynth.C12_builtin_selectable"
   ],
   "note": "Exactly-once, dependencies-first, unreachable untouched, cycles never return, well-behaved samplers (also those that read positions, luminosities and their dependencies) return: proved for all graphs. That every unsampled reachable sampler is drawn needs dependencies of drawn samplers to be drawn (invariant of all draw histories, proved); it fails when a dependency is attached after drawing (witness)."
  },
  {
   "property": "C13",
   "status": "proved",
   "theorems": [
    "Popsynth.C13_no_redraw",
    "Popsynth.C13_values_survive",
    "Popsynth.C13_shared_values"
   ],
   "note": ""
  },
  {
   "property": "C14",
   "status": "proved",
   "theorems": [
    "Popsynth.C14_unobserved_equals_true",
    "Popsynth.C14_unassigned_never_drawn",
    "Popsynth.C14_raising_never_drawn"
   ],
   "note": "BrokenPowerLawAuxSampler enters as code whose observation sampler always raises."
  },
  {
   "property": "C15",
   "status": "proved",
   "theorems": [
    "Popsynth.C15_reset",
    "Popsynth.C15_reset_returns",
    "Popsynth.C15_redraw_after_reset",
    "Popsynth.C15_shared_secondary_goes_stale"
   ],
   "note": "Also shown: a shared secondary that is reset through one parent leaves the other parent stale."
  },
  {
   "property": "C16",
   "status": "proved",
   "theorems": [
    "Popsynth.C16_reports",
    "Popsynth.C16_probability",
    "Popsynth.C16_collect_returns",
    "Popsynth.C16_name_collision_loses_report",
    "Popsynth.C16_empty_name_loses_report",
    "Popsynth.C16_survey"
   ],
   "note": "get_secondary_properties; the survey level is in Props/Survey. Witnesses that distinct non-empty names are needed."
  },
  {
   "property": "C17",
   "status": "partial",
   "theorems": [
    "Popsynth.C17_draw_positions",
    "Popsynth.C17_draw_luminosity",
    "Popsynth.C17_survey_positions",
    "Popsynth.C17_survey_luminosity_partial",
    "Popsynth.C17_violated_deep_luminosity"
   ],
   "note": "Positions: proved for every sampler of a survey. Luminosities: proved for attached samplers and direct dependencies; violated for dependencies of dependencies (witness)."
  },
  {
   "property": "C18",
   "status": "proved",
   "theorems": [
    "Popsynth.C18_lengths"
   ],
   "note": "Every returned survey, arbitrary user code."
  },
  {
   "property": "C19",
   "status": "proved",
   "theorems": [
    "Popsynth.C19_selected_iff",
    "Popsynth.C19_hard_flux",
    "Popsynth.C19_violated_shared_selector"
   ],
   "note": "Fresh, unshared selectors; sharing a selector violates it (witness)."
  },
  {
   "property": "C20",
   "status": "proved",
   "theorems": [
    "Popsynth.C20_partition"
   ],
   "note": ""
  },
  {
   "property": "C21",
   "status": "partial",
   "theorems": [
    "Popsynth.C21_leftovers_partial",
    "Popsynth.C21_redraw_partial",
    "Popsynth.C21_spatial_forgets_partial",
    "Popsynth.SurveyExample.C21_violated_leftover",
    "Popsynth.C21_reproducible_partial",
    "Popsynth.SurveyExample.C21_violated_numba"
   ],
   "note": "Proved for surveys whose random numbers all come from numpy's generator: the outcome does not depend on the generator state before seeding, nor on values left over by an earlier survey where the survey cannot see them; a survey drawn from untouched samplers, reset and drawn again returns the same population (selectors not shared, secondaries using luminosities only below attached samplers, parameters not set by the survey). Violated when a sampler uses numba's own generator, which np.random.seed does not reach (witness), and when a secondary of the derived luminosity sampler sees luminosities that reset does not clear (witness)."
  },
  {
   "property": "C22",
   "status": "partial",
   "theorems": [
    "Popsynth.C22_noise_partial",
    "Popsynth.C22_no_sigma",
    "Popsynth.C22_violated_unity",
    "Popsynth.C22_lengths",
    "Popsynth.C22_positive",
    "Popsynth.C22_finite"
   ],
   "note": "With a non-unity flux selection the observed flux is the inverse log of log flux plus one normal draw per object, in order; positive over the reals. Violated when the flux selection is a UnitySelection: flux_sigma is silently ignored (general theorem). A returned survey has every observed flux finite. Fluxes and noise of different lengths raise unless one is single (C22_lengths)."
  },
  {
   "property": "C23",
   "status": "partial",
   "theorems": [
    "Popsynth.C23_product_partial",
    "Popsynth.C23_violated_unity"
   ],
   "note": "Product over distance, luminosity and all quantities with a non-unity selection, for every graph. Violated: quantities with a UnitySelection are left out even if they define a probability (witness)."
  },
  {
   "property": "C24",
   "status": "proved",
   "theorems": [
    "Popsynth.C24_returns",
    "Popsynth.C24_iff",
    "Popsynth.C24_builtin_selections",
    "Popsynth.C24_no_source",
    "Popsynth.C24_derived_only"
   ],
   "note": "A survey whose parts each do their own job (Spec.Configured) returns a population exactly when there is a luminosity distribution or a derived luminosity sampler, and raises RuntimeError exactly when there is neither; with a derived sampler the distribution is never drawn from and the reported luminosities are the derived sampler's. The built-in selections with set parameters satisfy the hypothesis on selectors (C24_builtin_selections, C12_builtin_selectable)."
  },
  {
   "property": "C25",
   "status": "partial",
   "theorems": [
    "Popsynth.C25_violated_second_draw",
    "Popsynth.C25_clean_partial",
    "Popsynth.SurveyExample.C25_violated_stale_mask",
    "Popsynth.SurveyExample.C25_violated_other_size",
    "Popsynth.SurveyExample.C25_violated_clean_spaces"
   ],
   "note": "clean(reset=True) restores a fresh synth except model spaces (proved). Violated: drawing a second survey without clean fails or reuses stale selector data (general theorem and witnesses); clean leaves model spaces in place (witness)."
  },
  {
   "property": "C26",
   "status": "partial",
   "theorems": [
    "Popsynth.C26_violated_no_known",
    "Popsynth.C26_violated_example"
   ],
   "note": "Violated: with detections and no known distance the log message takes max of an empty array and the survey raises ValueError (general theorem and witness)."
  },
  {
   "property": "C27",
   "status": "partial",
   "theorems": [
    "Popsynth.C27_parameters_kept_partial",
    "Popsynth.C27_norm_recorded",
    "Popsynth.C27_count_keeps_parameters_partial",
    "Popsynth.C27_violated_untouched_default",
    "Popsynth.C27_violated_exception_leaves_one",
    "Popsynth.C27_violated_unset_becomes_one"
   ],
   "note": "Proved: whenever draw_distance or the expected count returns, every parameter reads as before. Violated: with normalize=True an untouched default raises UnboundLocalError, and an exception leaves the normalization at one."
  },
  {
   "property": "C28",
   "status": "partial",
   "theorems": [
    "Popsynth.C28_expected_count",
    "Popsynth.C28_probability_density_partial",
    "Popsynth.C28_exact_integral",
    "Popsynth.C28_builtin_expected_count",
    "Popsynth.C28_violated_rejected_assignment",
    "Popsynth.C28_violated_rejected_assignment_reachable",
    "Popsynth.C28_violated_silent_sampling",
    "Popsynth.C28_violated_unflagged"
   ],
   "note": "Proved for every class of the normalized form and all five flagged built-ins: Poisson mean is the normalization parameter, reported density integrates to one. Violated: without progress bar the distances are not sampled from that density; a rejected assignment gives KeyError; unflagged built-ins give one."
  },
  {
   "property": "C29",
   "status": "proved",
   "theorems": [
    "Popsynth.C29_step",
    "Popsynth.C29_sequence"
   ],
   "note": "Every call and every finite sequence of calls; sampler names are fixed, everything else about samplers may change in between."
  },
  {
   "property": "C30",
   "status": "proved",
   "theorems": [
    "Popsynth.C30_construction",
    "Popsynth.C30_has_detections",
    "Popsynth.C30_counts"
   ],
   "note": "Construction succeeds iff the arguments are consistent; counts follow for every constructed population."
  },
  {
   "property": "C31",
   "status": "partial",
   "theorems": [
    "Popsynth.C31_stan_partial",
    "Popsynth.C31_violated_name"
   ],
   "note": "Proved when no quantity or model space uses a name the export writes itself; C31_violated_name shows a clash overwriting entries of the export."
  },
  {
   "property": "C32",
   "status": "partial",
   "theorems": [
    "Popsynth.C32_violated_write",
    "Popsynth.C32_objects_partial",
    "Popsynth.C32_violated_known"
   ],
   "note": "Objects, order, values, detection flags and counts proved; the code tests object numbers against known distances (C32_violated_known), and a sub-population cannot be written to a file (C32_violated_write)."
  },
  {
   "property": "C33",
   "status": "partial",
   "theorems": [
    "Popsynth.C33_protected_partial",
    "Popsynth.C33_violated_method",
    "Popsynth.C33_fixed_names"
   ],
   "note": "Protected names keep their values under every sequence of assignments; names of properties can never be taken and methods stay available otherwise (C33_fixed_names); a quantity named like a method hides it (C33_violated_method)."
  },
  {
   "property": "C34",
   "status": "proved",
   "theorems": [
    "Popsynth.C34_split",
    "Popsynth.C34_getitem_aligned",
    "Popsynth.C34_getitem_mask",
    "Popsynth.C34_ints",
    "Popsynth.C34_slice",
    "Popsynth.C34_slice_back"
   ],
   "note": "Split, interleaving, index arrays, masks and slices, for every mask and values."
  },
  {
   "property": "C35",
   "status": "proved",
   "theorems": [
    "Popsynth.C35_values",
    "Popsynth.C35_refused",
    "Popsynth.C35_refused_broadcast",
    "Popsynth.C35_commutes"
   ],
   "note": "Elementwise functions on variables, scalars and arrays with broadcasting; refusals characterised."
  },
  {
   "property": "C36",
   "status": "partial",
   "theorems": [
    "Popsynth.C36_effect",
    "Popsynth.C36_violated",
    "Popsynth.C36_violated_aliased",
    "Popsynth.C36_observed_partial"
   ],
   "note": "Effect of in-place operators characterised exactly; the observed values come out right only when they equal the latent ones or are overwritten (C36_violated, C36_violated_aliased)."
  },
  {
   "property": "C37",
   "status": "partial",
   "theorems": [
    "Popsynth.C37_twice_partial",
    "Popsynth.C37_violated_float",
    "Popsynth.C37_violated_int",
    "Popsynth.C37_violated_int_single"
   ],
   "note": "Selecting twice works for boolean selections; violated for float and int selection arrays."
  },
  {
   "property": "C38",
   "status": "partial",
   "theorems": [
    "Popsynth.C38_roundtrip_partial",
    "Popsynth.C38_refused",
    "Popsynth.C38_violated_fill",
    "Popsynth.C38_violated_bytes",
    "Popsynth.C38_violated_empty"
   ],
   "note": "Round trip and refusals for every nested dictionary by structural induction; violated for the string FILL_VALUE, bytes that are text and the empty dictionary. What h5py itself refuses is a parameter taken to accept everything."
  },
  {
   "property": "C39",
   "status": "partial",
   "theorems": [
    "Popsynth.C39_dictionary",
    "Popsynth.C39_reload_partial",
    "Popsynth.C39_violated_direction",
    "Popsynth.C39_violated_flags"
   ],
   "note": "clean_graph_dict after fill_graph_dict is the identity for every nested dictionary; a reloaded graph has the same nodes and edges but loses directions and observed flags (violations proved)."
  },
  {
   "property": "C40",
   "status": "partial",
   "theorems": [
    "Popsynth.C40_roundtrip_partial",
    "Popsynth.C40_groups",
    "Popsynth.C40_violated_probability",
    "Popsynth.C40_violated_forms",
    "Popsynth.C40_violated_unset",
    "Popsynth.C40_violated_synth"
   ],
   "note": "Round trip of everything but the probability (dataset misspelt), the forms, the type of the name and the graph; unset parameters and sub-populations cannot be written. Numbers are assumed to survive storage."
  },
  {
   "property": "C41",
   "status": "partial",
   "theorems": [
    "Popsynth.C41_roundtrip_partial",
    "Popsynth.C41_violated_derived",
    "Popsynth.C41_violated_inherited",
    "Popsynth.C41_violated_flags",
    "Popsynth.C41_violated_namesakes",
    "Popsynth.C41_violated"
   ],
   "note": "Round trip proved for configurations whose selections set only what from_dict restores, with distinct sampler names and acyclic secondaries; inherited selection parameters, selection flags, same-named secondaries and derived luminosity samplers are lost (C41_violated_*). Equality of the drawn surveys is C68_rebuilt_partial."
  },
  {
   "property": "C42",
   "status": "partial",
   "theorems": [
    "Popsynth.C42_sections",
    "Popsynth.C42_unchanged_partial",
    "Popsynth.C42_violated"
   ],
   "note": "Every section but the auxiliary samplers is unchanged; with auxiliary samplers the input always loses keys and a second call raises KeyError (C42_violated)."
  },
  {
   "property": "C43",
   "status": "partial",
   "theorems": [
    "Popsynth.C43_order_partial",
    "Popsynth.C43_violated_order",
    "Popsynth.C43_violated_first",
    "Popsynth.C43_violated_derived"
   ],
   "note": "Same synthesizer up to the order of the samplers if the first key of every section stays first; otherwise false (C43_violated_*). File formats themselves are modelled in C39/C40 only."
  },
  {
   "property": "C44",
   "status": "partial",
   "theorems": [
    "Popsynth.C44_complete_partial",
    "Popsynth.C44_sound",
    "Popsynth.C44_again",
    "Popsynth.C44_returns",
    "Popsynth.C44_violated_nested",
    "Popsynth.C44_violated_noLuminosity",
    "Popsynth.C44_violated_stale",
    "Popsynth.C44_violated_clean",
    "Popsynth.C44_violated_derived",
    "Popsynth.C44_violated_distance"
   ],
   "note": "Soundness, idempotence and (up to the observed nodes of a derived luminosity sampler's dependencies) completeness proved; stale nodes, missing edges and failures shown as violations."
  },
  {
   "property": "C45",
   "status": "proved",
   "theorems": [
    "Popsynth.C45_returns_only_accepted",
    "Popsynth.C45_first_accepted",
    "Popsynth.C45_no_density_never_returns",
    "Popsynth.C45_draw_distance",
    "Popsynth.C45_acceptance_probability",
    "Popsynth.C45_accepted_law",
    "Popsynth.C45_proportional_iff_bound",
    "Popsynth.C45_violated_grid_maximum"
   ],
   "note": "Accepted only, in range, exactly the first accepted trial, acceptance probability and law, proportional iff bounded. Additional finding: draw_distance uses the maximum over a 500-point grid, which need not be a bound; a vanishing density never terminates."
  },
  {
   "property": "C46",
   "status": "partial",
   "theorems": [
    "Popsynth.C46_progress_irrelevant_partial",
    "Popsynth.C46_progress_irrelevant_classes_partial",
    "Popsynth.C46_violated_normalized"
   ],
   "note": "Proved with normalize=False. Violated with normalize=True: the silent path compares unnormalized densities with the normalized bound."
  },
  {
   "property": "C47",
   "status": "partial",
   "theorems": [
    "Popsynth.C47_density",
    "Popsynth.C47_array",
    "Popsynth.C47_weights",
    "Popsynth.C47_phi",
    "Popsynth.C47_violated_int"
   ],
   "note": "Proved for arrays of floats and all parameters in the range of the property (weights, non-negativity, positivity inside, continuity at the break, zero outside, integral one, and phi is the same density). Violated for arrays of integers, where the density is stored in an array of integers and loses its fraction (C47_violated_int)."
  },
  {
   "property": "C48",
   "status": "partial",
   "theorems": [
    "Popsynth.C48_inverse",
    "Popsynth.C48_law",
    "Popsynth.C48_violated_minusOne"
   ],
   "note": "Proved for 0 < Lmin < Lbreak < Lmax and exponents other than -1: range, inversion of each piece and the law of coin plus inverse transform. Violated for exponents of -1, which the parameters accept: the weights are nan and the Bernoulli trials raise ValueError (C48_violated_minusOne)."
  },
  {
   "property": "C49",
   "status": "proved",
   "theorems": [
    "Popsynth.C49_inverse"
   ],
   "note": "Exact real arithmetic; the uniform number is an argument."
  },
  {
   "property": "C50",
   "status": "partial",
   "theorems": [
    "Popsynth.C50_pareto_partial",
    "Popsynth.C50_pareto_draw_partial",
    "Popsynth.C50_violated_pareto_index",
    "Popsynth.C50_violated_pareto_int",
    "Popsynth.C50_schechter_partial",
    "Popsynth.C50_schechter_draw_partial",
    "Popsynth.C50_violated_schechter",
    "Popsynth.C50_logNormal_partial",
    "Popsynth.C50_violated_width",
    "Popsynth.C50_log10Normal_partial",
    "Popsynth.C50_violated_log10",
    "Popsynth.C50_logUniform_partial",
    "Popsynth.C50_violated_logUniform",
    "Popsynth.C50_bpl_partial",
    "Popsynth.C50_delta"
   ],
   "note": "Normalized density and draws following it proved for Pareto (index > 0), Schechter (index > -1), log-normal (width > 0), log-uniform (increasing limits), broken power law (exponents other than -1) and the single luminosity. Violated: the log10-normal function integrates to ln 10 for all parameters; negative or zero Pareto indices, Schechter indices of at most -1, zero widths and limits in the wrong order are accepted by the parameters; integer arrays truncate the Pareto function; a uniform number of exactly zero gives an infinite Schechter luminosity."
  },
  {
   "property": "C51",
   "status": "partial",
   "theorems": [
    "Popsynth.C51_inside",
    "Popsynth.C51_normal",
    "Popsynth.C51_logNormal_partial",
    "Popsynth.C51_violated_zero",
    "Popsynth.C51_zero_width",
    "Popsynth.C51_violated_zero_covers",
    "Popsynth.C51_log10_partial",
    "Popsynth.C51_violated_log10_above",
    "Popsynth.C51_violated_log10_empty",
    "Popsynth.C51_violated_log10_below"
   ],
   "note": "All three samplers return only values in [lower, upper] or raise (C51_inside). The whole interval is covered by the normal sampler and by the log-normal one for positive lower limits. Violated by a lower limit of zero (cut at the 1e-5 quantile) and by the base-ten sampler, which takes the natural logarithm of the lower limit: too small an interval above one, none for 10 and 100, failed assertions below one. With width zero the log-normal sampler returns its location if that is strictly inside and refuses otherwise, the normal one always refuses (C51_zero_width)."
  },
  {
   "property": "C52",
   "status": "partial",
   "theorems": [
    "Popsynth.C52_range",
    "Popsynth.C52_isotropic",
    "Popsynth.C52_xyz",
    "Popsynth.C52_viewing_partial",
    "Popsynth.C52_violated_viewing_zero",
    "Popsynth.C52_ra_sampler",
    "Popsynth.C52_violated_dec_sampler",
    "Popsynth.C52_spiral_partial",
    "Popsynth.C52_violated_spiral",
    "Popsynth.C52_drawn",
    "Popsynth.C52_drawn_error",
    "Popsynth.C52_drawn_positions"
   ],
   "note": "Ranges, isotropy (joint law of cos(theta) and phi), preserved radius, and range and density of viewing angles for maximal angles in (0, 180] degrees. Violated: a maximal angle of zero is accepted and gives 0/0; the declination sampler and the positions of the spiral galaxy are not isotropic (C52_violated_*)."
  },
  {
   "property": "C53",
   "status": "proved",
   "theorems": [
    "Popsynth.C53_luminosity_distance",
    "Popsynth.C53_comoving_distance",
    "Popsynth.C53_volume",
    "Popsynth.C53_no_matter"
   ],
   "note": "Exact real arithmetic; the radiation density, computed from h0 and two temperatures, is an arbitrary non-negative number."
  },
  {
   "property": "C54",
   "status": "partial",
   "theorems": [
    "Popsynth.C54_spherical",
    "Popsynth.C54_cosmological_partial",
    "Popsynth.C54_violated_zero",
    "Popsynth.C54_violated_flatland"
   ],
   "note": "Linear, positive, strictly decreasing and with a horizon for every limit: spherical distributions at all distances, cosmological ones at positive redshifts. Violated at redshift zero (infinite) and by the flat land (constant)."
  },
  {
   "property": "C55",
   "status": "proved",
   "theorems": [
    "Popsynth.C55_sphericalPopulation",
    "Popsynth.C55_zpowerSphericalPopulation",
    "Popsynth.C55_zpowerCosmoPopulation",
    "Popsynth.C55_sfrPopulation",
    "Popsynth.C55_mwRadialPopulation",
    "Popsynth.C55_bplHomogeneousSphericalPopulation",
    "Popsynth.C55_bplZPowerSphericalPopulation",
    "Popsynth.C55_bplZPowerCosmoPopulation",
    "Popsynth.C55_bplSFRPopulation",
    "Popsynth.C55_logNormalHomogeneousSphericalPopulation",
    "Popsynth.C55_logNormalZPowerSphericalPopulation",
    "Popsynth.C55_logNormalZPowerCosmoPopulation",
    "Popsynth.C55_logNormalSFRPopulation",
    "Popsynth.C55_log10NormalHomogeneousSphericalPopulation",
    "Popsynth.C55_log10NormalZPowerSphericalPopulation",
    "Popsynth.C55_log10NormalZPowerCosmoPopulation",
    "Popsynth.C55_log10NormalSFRPopulation",
    "Popsynth.C55_paretoHomogeneousSphericalPopulation",
    "Popsynth.C55_paretoZPowerSphericalPopulation",
    "Popsynth.C55_paretoZPowerCosmoPopulation",
    "Popsynth.C55_paretoSFRPopulation",
    "Popsynth.C55_schechterHomogeneousSphericalPopulation",
    "Popsynth.C55_schechterZPowerSphericalPopulation",
    "Popsynth.C55_schechterZPowerCosmoPopulation",
    "Popsynth.C55_schechterSFRPopulation"
   ],
   "note": "One theorem per class, for all numbers, seeds and descriptor flags: with allowed values exactly these values are set, read and copied to the synth, with the right classes, seeds, rate flag and name; otherwise RuntimeError. None as an argument is not covered."
  },
  {
   "property": "C56",
   "status": "partial",
   "theorems": [
    "Popsynth.C56_activate_partial",
    "Popsynth.C56_activate_noSwitch",
    "Popsynth.C56_context",
    "Popsynth.C56_warnings_partial",
    "Popsynth.C56_violated_warnings",
    "Popsynth.C56_violated_progress",
    "Popsynth.C56_violated_dev",
    "Popsynth.C56_violated_twice",
    "Popsynth.C56_setup",
    "Popsynth.C56_modes",
    "Popsynth.C56_warnings_only",
    "Popsynth.C56_violated_silence"
   ],
   "note": "Levels restored in every history, context manager proved for every body; handlers of a logger, what each mode and the warning filter let through. Violated for warnings silenced before, progress bars, the developer log, two switches in a row, and critical messages, which are written in the silent modes."
  },
  {
   "property": "C57",
   "status": "partial",
   "theorems": [
    "Popsynth.C57_grid",
    "Popsynth.C57_calls",
    "Popsynth.C57_accepted",
    "Popsynth.C57_stan_partial",
    "Popsynth.C57_violated_name"
   ],
   "note": "Grid in exact arithmetic, every sequence of calls, acceptance and export proved; export fails when an attached quantity q has q_obs equal to the name."
  },
  {
   "property": "C58",
   "status": "partial",
   "theorems": [
    "Popsynth.C58_truth_lookup",
    "Popsynth.C58_survey_partial",
    "Popsynth.SurveyExample.C58_violated_deep",
    "Popsynth.SurveyExample.C58_violated_spatial_default"
   ],
   "note": "Parameter-level truth proved for all histories. Survey level proved for attached samplers, the derived sampler, their direct dependencies, and the luminosity distribution; violated for deeper dependencies and for untouched defaults of the spatial distribution (witnesses)."
  },
  {
   "property": "C59",
   "status": "partial",
   "theorems": [
    "Popsynth.C59_violated",
    "Popsynth.C59_violated_param",
    "Popsynth.C59_violated_spatial_param",
    "Popsynth.C59_violated_space",
    "Popsynth.C59_exports_partial"
   ],
   "note": "Violated: parameters, model spaces and graph are those of the synth now. Stan data and sub-populations only depend on its model spaces."
  },
  {
   "property": "C60",
   "status": "proved",
   "theorems": [
    "Popsynth.C60_positions",
    "Popsynth.C60_luminosities",
    "Popsynth.C60_derived_luminosities",
    "Popsynth.C60_fluxes",
    "Popsynth.C60_distance_mask",
    "Popsynth.C60_positive_fluxes",
    "Popsynth.C60_horizon",
    "Popsynth.C60_parameters"
   ],
   "note": "For every returned survey. The horizon statement is over the reals, for a monotone distance-flux relation."
  },
  {
   "property": "C61",
   "status": "proved",
   "theorems": [
    "Popsynth.C61_refused",
    "Popsynth.C61_setup",
    "Popsynth.C61_clean_keeps",
    "Popsynth.C61_clean_is_not_reset",
    "Popsynth.C61_sampler_selection",
    "Popsynth.C61_sampler_survey"
   ],
   "note": "Sequences of setter calls (synth and samplers), refused calls and clean(reset=False) from any state; clean without reset does not undo selections (witness)."
  },
  {
   "property": "C62",
   "status": "partial",
   "theorems": [
    "Popsynth.C62_true",
    "Popsynth.C62_true_broken",
    "Popsynth.C62_length",
    "Popsynth.C62_recorded",
    "Popsynth.C62_observed",
    "Popsynth.C62_exact",
    "Popsynth.C62_sigma_recorded",
    "Popsynth.C62_unobserved",
    "Popsynth.C62_works",
    "Popsynth.C62_defaults",
    "Popsynth.C62_missing",
    "Popsynth.C62_default_values",
    "Popsynth.C62_limits_needed",
    "Popsynth.C62_within_limits",
    "Popsynth.C62_limits_ordered",
    "Popsynth.C62_hidden",
    "Popsynth.C62_probability",
    "Popsynth.C62_violated_broken_power_law",
    "Popsynth.C62_names",
    "Popsynth.C62_by_name",
    "Popsynth.C62_by_name_broken"
   ],
   "note": "Proved for all classes over an arbitrary number type with the numerical primitives as parameters: the values drawn, the defaults, the limits of the truncated samplers, what is never observed and the probabilities. Violated by the broken power law: it is observed by default but declares no sigma, so its draw never returns (C62_violated_broken_power_law). C62_by_name and C62_by_name_broken: the same for samplers that a configuration names by their class."
  },
  {
   "property": "C63",
   "status": "proved",
   "theorems": [
    "Popsynth.C63_reads",
    "Popsynth.C63_succeeds",
    "Popsynth.C63_unique"
   ],
   "note": "Soundness, completeness and uniqueness of the description, for all registries and dictionaries without repeated keys. What exceptions are raised for other dictionaries is not part of it."
  },
  {
   "property": "C64",
   "status": "partial",
   "theorems": [
    "Popsynth.C64_distributions",
    "Popsynth.C64_selections",
    "Popsynth.C64_selection_flags",
    "Popsynth.C64_samplers",
    "Popsynth.C64_bases",
    "Popsynth.C64_defaults",
    "Popsynth.C64_parameters",
    "Popsynth.C64_roundtrip_partial",
    "Popsynth.C64_reread",
    "Popsynth.C64_proper",
    "Popsynth.C64_unregistered",
    "Popsynth.C64_violated_sky",
    "Popsynth.C64_violated_base",
    "Popsynth.C64_violated_flux",
    "Popsynth.C64_violated_flux_roundtrip",
    "Popsynth.C64_violated_circle",
    "Popsynth.C64_selection_declarations",
    "Popsynth.C64_population_declarations",
    "Popsynth.C64_sampler_declarations",
    "Popsynth.C64_spatial_declarations"
   ],
   "note": "Proved for all built-in classes: names, constructors, what new selections look at, parameters, limits, defaults, agreement with the declarations used in the other models, round trip of synths made of them, re-reading, and that to_dict writes proper dictionaries. Violated: abstract base classes and Distribution (C64_violated_base), the sky samplers, which import popsynth does not register (C64_violated_sky), flux selections of samplers, which lose their parameters (C64_violated_flux, C64_violated_flux_roundtrip), and circular secondaries, which from_dict reads but to_dict cannot write (C64_violated_circle)."
  },
  {
   "property": "C65",
   "status": "partial",
   "theorems": [
    "Popsynth.C65_draw",
    "Popsynth.C65_retry",
    "Popsynth.C65_survey",
    "Popsynth.C65_reset",
    "Popsynth.C65_selection_raises",
    "Popsynth.FailureExample.C65_violated_stale",
    "Popsynth.FailureExample.C65_violated_repair"
   ],
   "note": "Proved: what any draw and any survey leaves (C65_draw, C65_survey), retries after any history (C65_retry), reset and redraw (C65_reset), random numbers of a failed selection (C65_selection_raises). Violated: a selection that failed is never drawn again, so correcting its cause does not help without a reset (C65_violated_repair), and a repeated survey reports values of the failed attempt (C65_violated_stale)."
  },
  {
   "property": "C66",
   "status": "partial",
   "theorems": [
    "Popsynth.C66_count",
    "Popsynth.C66_ball",
    "Popsynth.C66_constant",
    "Popsynth.C66_flatland",
    "Popsynth.C66_cosmological",
    "Popsynth.C66_volume",
    "Popsynth.C66_violated_sky",
    "Popsynth.C66_rate",
    "Popsynth.C66_violated_local",
    "Popsynth.C66_violated_limits"
   ],
   "note": "Exact real arithmetic, quadrature exact for the density at hand. Proved: the mean is what the quadrature makes of the density (C66_count), the integral of the documented density over a ball for the spherical distributions (C66_ball, C66_constant), over a length in flat land, and over the volume element of the package for cosmological ones, which is the comoving volume per steradian (C66_cosmological, C66_volume); fewer transient events than steady objects (C66_rate). Violated: nothing multiplies by the 4 pi steradians of the sky (C66_violated_sky), r0 of the star-formation distribution is not the local density (C66_violated_local), zmin and zmax do not limit redshifts (C66_violated_limits)."
  },
  {
   "property": "C67",
   "status": "partial",
   "theorems": [
    "Popsynth.C67_catalog",
    "Popsynth.C67_detected",
    "Popsynth.C67_true_drawn",
    "Popsynth.C67_limits",
    "Popsynth.C67_violated_true",
    "Popsynth.C67_fluxes",
    "Popsynth.C67_arrow_tips",
    "Popsynth.C67_violated_arrows",
    "Popsynth.C67_luminosities",
    "Popsynth.C67_distances",
    "Popsynth.C67_display",
    "Popsynth.C67_repr",
    "Popsynth.C67_colours",
    "Popsynth.C67_colours_positive",
    "Popsynth.C67_colours_unit",
    "Popsynth.C67_sphere",
    "Popsynth.C67_violated_figure"
   ],
   "note": "Matplotlib, ipyvolume and IPython are taken to show the values given to them; colours of the spheres in exact arithmetic. Proved: every population has one catalogue of objects (C67_catalog); what is drawn of it by each plot, and where (C67_detected, C67_true_drawn, C67_limits, C67_fluxes, C67_luminosities, C67_distances, C67_sphere, C67_arrow_tips), the colour scale (C67_colours, C67_colours_positive, C67_colours_unit), the displayed numbers (C67_display, C67_repr). Violated: the fluxes labelled true are the observed ones (C67_violated_true), so that the arrows have no length (C67_violated_arrows); if every object is detected the figure of the spheres is drawn but not returned, and use_log has no effect (C67_violated_figure)."
  },
  {
   "property": "C68",
   "status": "partial",
   "theorems": [
    "Popsynth.C68_objects",
    "Popsynth.C68_configured",
    "Popsynth.C68_rebuilt_partial",
    "Popsynth.C68_same_dict",
    "Popsynth.C68_dict_in_memory",
    "Popsynth.RebuildExample.C68_violated_shared"
   ],
   "note": "Proved without conditions on the configuration: synths whose objects correspond one to one and hold the same data draw the same population and leave the same random state, or raise the same exception, in any state (C68_objects). Proved for configurations to_dict can describe completely, made of new and different objects: equally configured synths draw the same survey (C68_configured), the one rebuilt by from_dict does (C68_rebuilt_partial), writing again gives the same dictionary (C68_same_dict), and to_dict read off memory is the dictionary of the configuration (C68_dict_in_memory). Violated: a selector object given to two samplers is written twice and rebuilt as two, and the survey differs (C68_violated_shared). Populations are compared up to which selector objects their auxiliary quantities refer to."
  },
  {
   "property": "C69",
   "status": "partial",
   "theorems": [
    "Popsynth.C69_sections",
    "Popsynth.C69_once",
    "Popsynth.C69_repr_raises",
    "Popsynth.C69_same_values",
    "Popsynth.C69_observed",
    "Popsynth.C69_values",
    "Popsynth.C69_rows",
    "Popsynth.C69_complete_partial",
    "Popsynth.SynthDisplayExample.C69_violated_hidden",
    "Popsynth.SynthDisplayExample.C69_violated_secondary",
    "Popsynth.SynthDisplayExample.C69_violated_print",
    "Popsynth.SynthDisplayExample.C69_violated_default"
   ],
   "note": "Proved: which sections a display has and what they show (C69_sections), each once if names differ (C69_once), when printing raises (C69_repr_raises), that text and display agree (C69_same_values), that values shown are the ones used (C69_values), which parameters have a row (C69_rows), and that every sampler drawn by a survey is shown if secondaries do not nest, only the derived luminosity sampler has any, and names differ (C69_complete_partial). Violated: an attached sampler with the name of a sampler the derived luminosity sampler depends on is left out (C69_violated_hidden), so are secondaries of attached samplers (C69_violated_secondary) and parameters that only have their default (C69_violated_default); a synth without luminosity cannot be printed (C69_violated_print)."
  },
  {
   "property": "C70",
   "status": "partial",
   "theorems": [
    "Popsynth.C70_merge",
    "Popsynth.C70_accepted",
    "Popsynth.C70_written",
    "Popsynth.C70_file_kept",
    "Popsynth.C70_settings",
    "Popsynth.C70_defaults",
    "Popsynth.C70_usable_partial",
    "Popsynth.SettingsExample.C70_violated_level"
   ],
   "note": "OmegaConf's merge as documented, conversion of values arbitrary. Proved: what the merged configuration has at every path (C70_merge), exactly which files are accepted (C70_accepted), that the file written by the first import changes nothing at later ones (C70_written), that an existing file is kept whatever happens (C70_file_kept), what logging and cosmology take from a configuration (C70_settings), the settings without a file (C70_defaults), and that an accepted file can be used if the levels are names Python knows (C70_usable_partial). Violated: levels are not checked when the file is read, so a file with the level info is accepted and then the import raises (C70_violated_level)."
  },
  {
   "property": "C71",
   "status": "proved",
   "theorems": [
    "Popsynth.C71_roundtrip",
    "Popsynth.C71_arguments",
    "Popsynth.C71_survey",
    "Popsynth.C71_in_memory",
    "Popsynth.C71_names",
    "Popsynth.C71_in_memory_builtin"
   ],
   "note": "For the 25 classes of popsynth/populations. The luminosity of the five spatial ones is any object of a built-in luminosity class with parameters assigned (or none). from_dict assigns parameters without regard to class-level free flags, see DESIGN.md. C71_names and C71_in_memory_builtin discharge the hypothesis on names for the classes of the package."
  },
  {
   "property": "C72",
   "status": "partial",
   "theorems": [
    "Popsynth.C72_detects",
    "Popsynth.C72_known",
    "Popsynth.C72_violated_distance"
   ],
   "note": "Proved for detections: a definite demand (bounds, boxes, hard flux limits, galactic plane, distance range, no selection) is met by every detected object, and with only such demands every object that meets them is detected (C72_detects); without a distance selection every detected object has a known distance (C72_known). Violated: a distance selection that states bounds is accepted by from_dict, but draw_survey never gives it the distances and no survey returns (C72_violated_distance). Random selections (Bernoulli, soft) are not definite: C72_detects says nothing about them; the samplers must not depend on each other in a cycle and must have names."
  },
  {
   "property": "C73",
   "status": "partial",
   "theorems": [
    "Popsynth.C73_rejection_sample",
    "Popsynth.C73_draw_distance",
    "Popsynth.C73_draw_distance_exact",
    "Popsynth.C73_exact_iff",
    "Popsynth.C73_sphere",
    "Popsynth.C73_draw_distance_iff",
    "Popsynth.C73_normalized_law",
    "Popsynth.C73_normalized",
    "Popsynth.C73_violated_silent",
    "Popsynth.C73_sky",
    "Popsynth.C73_positions",
    "Popsynth.C73_violated_grid"
   ],
   "note": "Proved: rejection_sample and draw_distance of every class of the modelled form almost surely return and leave independent distances with density proportional to min(dens, ymax), exact iff the bound holds almost everywhere; the sphere has P(r <= t) = (t/r_max)^3; with normalize=True and progress bar the law is the shape of the density; sky positions are independent and isotropic; distances and positions are independent. Violated: with normalize=True and no progress bar the sphere does not follow its density; bumps between grid points are cut off. The fairness of numpy's generator is a hypothesis, shown satisfiable by a generator made of a sequence of independent uniform numbers."
  },
  {
   "property": "C74",
   "status": "proved",
   "theorems": [
    "Popsynth.C74_detects_all",
    "Popsynth.C74_detects_hard",
    "Popsynth.C74_detects_upper",
    "Popsynth.C74_detects_box",
    "Popsynth.C74_detects_soft",
    "Popsynth.C74_detects_coin",
    "Popsynth.C74_catalogue",
    "Popsynth.C74_given_number"
   ],
   "note": "For synths without auxiliary samplers and with UnitySelection on distances, normalize=False. numpy's laws (uniform, Poisson, normal, Bernoulli) and the law of the luminosities are hypotheses (Spec.Lawful, Spec.Counted, Spec.FairBern), shown satisfiable together by a generator made of a sequence of independent triples and a survey of a sphere with soft flux limit. Distances follow the density cut off at its largest value on the grid, see C73."
  },
  {
   "property": "C75",
   "status": "proved",
   "theorems": [
    "Popsynth.C75_thinning",
    "Popsynth.C75_counts",
    "Popsynth.C75_nothing_detected"
   ],
   "note": "Same assumptions as C74. The thinning theorem for Poisson processes on lists is proved from Mathlib's product measures (Lemmas/PoissonProcess.lean); selected and non-selected parts are those of SimulatedVariable."
  },
  {
   "property": "C76",
   "status": "partial",
   "theorems": [
    "Popsynth.C76_survey",
    "Popsynth.C76_pareto",
    "Popsynth.C76_schechter",
    "Popsynth.C76_logNormal",
    "Popsynth.C76_log10Normal_partial",
    "Popsynth.C76_violated_log10",
    "Popsynth.C76_logUniform",
    "Popsynth.C76_delta",
    "Popsynth.C76_bpl"
   ],
   "note": "Holds for six of the seven classes; fails for phi of Log10NormalDistribution, which is log(10) times the density (C76_violated_log10; its draws are right, C76_log10Normal_partial). Exact reals; the laws of numpy's and scipy's numbers are hypotheses (Spec.FairNumbers, Spec.IsGammaincinv), shown satisfiable in Props/LawLumExample.lean."
  },
  {
   "property": "C77",
   "status": "proved",
   "theorems": [
    "Popsynth.C77_counts",
    "Popsynth.C77_flux_limit"
   ],
   "note": "Same assumptions as C74, and the density does not exceed its highest value on the grid and the quadrature is exact; satisfied by the survey in Props/LawLumExample.lean."
  },
  {
   "property": "C78",
   "status": "partial",
   "theorems": [
    "Popsynth.C78_counts",
    "Popsynth.C78_survey",
    "Popsynth.C78_violated_euclid"
   ],
   "note": "The law of the number of detections is proved, with horizon sqrt(L/(4 pi F)) - 1 (C78_counts, C78_survey). The Euclidean scaling fails because SphericalDistribution.transform adds one to the distance: a survey four times deeper can expect 27 instead of 8 times as many objects (C78_violated_euclid)."
  },
  {
   "property": "C79",
   "status": "partial",
   "theorems": [
    "Popsynth.C79_normal",
    "Popsynth.C79_logNormal",
    "Popsynth.C79_log10Normal",
    "Popsynth.C79_delta",
    "Popsynth.C79_truncNormal",
    "Popsynth.C79_truncLogNormal_partial",
    "Popsynth.C79_violated_truncLog_zero",
    "Popsynth.C79_truncLog10Normal_partial",
    "Popsynth.C79_violated_truncLog10",
    "Popsynth.C79_pareto",
    "Popsynth.C79_powerLaw",
    "Popsynth.C79_viewingAngle",
    "Popsynth.C79_ra",
    "Popsynth.C79_dec",
    "Popsynth.C79_bpl",
    "Popsynth.C79_errors",
    "Popsynth.C79_truncLog10_zero_partial",
    "Popsynth.C79_violated_truncLog10_zero",
    "Popsynth.C79_violated_truncLog10_below"
   ],
   "note": "Proved for all thirteen classes and their measurement errors, except where the code deviates: the truncated log-normal classes miss part of the range (C79_violated_truncLog10 for lower limits above one, C79_violated_truncLog_zero and C79_violated_truncLog10_zero for the lower limit zero); the laws they do draw are C79_truncLogNormal_partial, C79_truncLog10Normal_partial and C79_truncLog10_zero_partial. For lower limits between zero and one the base-ten class fails its own assertion; C79_violated_truncLog10_below gives the probability, which tends to one with the number of objects. Exact reals (Spec.ExactAux); the laws of the underlying random numbers are hypotheses (Spec.FairAux), shown satisfiable in Props/LawAuxExample.lean."
  },
  {
   "property": "C80",
   "status": "proved",
   "theorems": [
    "Popsynth.C80_catalogue",
    "Popsynth.C80_given_number",
    "Popsynth.C80_builtin_plays",
    "Popsynth.C80_chooses_all",
    "Popsynth.C80_chooses_lower",
    "Popsynth.C80_chooses_upper",
    "Popsynth.C80_chooses_box",
    "Popsynth.C80_chooses_soft",
    "Popsynth.C80_chooses_coin",
    "Popsynth.C80_selects",
    "Popsynth.C80_thinning",
    "Popsynth.C80_counts",
    "Popsynth.C80_unselective"
   ],
   "note": "Samplers with secondaries are not covered. Each sampler may use three random reals per object (true value, error, selection); C80_builtin_plays and C80_chooses_* show that the built-in classes of C79 with unity, lower, upper, box, soft (use_log) and Bernoulli selections are of this form. The laws of the random numbers are hypotheses as for C74 and C79, shown satisfiable together in Props/LawAttachedExample.lean, where two samplers select a half and a third of the objects."
  },
  {
   "property": "C81",
   "status": "partial",
   "theorems": [
    "Popsynth.C81_violated",
    "Popsynth.C81_nonclass",
    "Popsynth.C81_subclass_partial",
    "Popsynth.C81_recorded",
    "Popsynth.C81_hook",
    "Popsynth.C81_meaning",
    "Popsynth.C81_violated_inherited"
   ],
   "note": "Violated: __subclasscheck__ uses _abc_cache, _abc_negative_cache and _abc_registry, which ParameterMeta never creates, so every call raises AttributeError, even for a class and itself (C81_violated, all hierarchies). Proved: the TypeError for other objects, and that with the three sets on every class the answer would be right whatever the caches contain (C81_subclass_partial, C81_meaning), that answers of hooks are returned (C81_hook) and that exactly the class asked about is recorded, on the right side (C81_recorded). If only a base has the sets, what is registered with the base passes for a subclass of the derived class (C81_violated_inherited)."
  },
  {
   "property": "C82",
   "status": "partial",
   "theorems": [
    "Popsynth.C82_match",
    "Popsynth.C82_parse",
    "Popsynth.C82_untagged",
    "Popsynth.C82_names",
    "Popsynth.C82_release",
    "Popsynth.C82_plus",
    "Popsynth.C82_checkout",
    "Popsynth.C82_violated_plus",
    "Popsynth.C82_violated_empty",
    "Popsynth.C82_violated_escape",
    "Popsynth.C82_pre",
    "Popsynth.C82_long",
    "Popsynth.C82_describe",
    "Popsynth.C82_post",
    "Popsynth.C82_release_styles",
    "Popsynth.C82_untagged_texts",
    "Popsynth.C82_tagged_texts",
    "Popsynth.C82_report",
    "Popsynth.C82_violated_date",
    "Popsynth.C82_date",
    "Popsynth.C82_archive",
    "Popsynth.C82_violated_branch",
    "Popsynth.C82_directory"
   ],
   "note": "Violated in corners: a tag with a plus sign can have the version of another tree (C82_violated_plus), the tag v alone counts as none (C82_violated_empty), an archive without tags takes a branch with a digit for a tag (C82_violated_branch), and when git fails after describe has worked the TypeError leaves get_versions (C82_violated_escape), likewise the AttributeError when only the date fails (C82_violated_date). Proved otherwise: the regular expression (C82_match), reading (C82_parse, C82_untagged), that versions name trees for tags that are not empty and have no plus (C82_names), releases, the text of every style (C82_untagged_texts, C82_tagged_texts, C82_report), dates, archives, directories. Text is a list of characters; white space and digits are those of ASCII."
  },
  {
   "property": "C83",
   "status": "partial",
   "theorems": [
    "Popsynth.C83_abstract",
    "Popsynth.C83_registry",
    "Popsynth.C83_raises",
    "Popsynth.C83_duties",
    "Popsynth.C83_usable",
    "Popsynth.C83_constructors",
    "Popsynth.C83_package",
    "Popsynth.C83_user",
    "Popsynth.C83_violated_replaced",
    "Popsynth.C83_violated_unnamed"
   ],
   "note": "Proved: open methods (C83_abstract), what each base class leaves open and when objects can be made (C83_duties, C83_usable), what every sequence of class statements leaves in the registry (C83_registry, C83_user), when a class statement raises (C83_raises), and that the package's own statements leave the registries of C64 (C83_package). Violated: a class derived from a concrete class without a name of its own replaces that class in configurations (C83_violated_replaced); selections and samplers without a name make the class statement raise AttributeError (C83_violated_unnamed). AutoRegister of the package class_registry is modelled from its documentation."
  },
  {
   "property": "C84",
   "status": "proved",
   "theorems": [
    "Popsynth.C84_demo_unobserved",
    "Popsynth.C84_demo2_no_secondary",
    "Popsynth.C84_demo2_secondary",
    "Popsynth.C84_demo2_positions",
    "Popsynth.C84_demo2_dark",
    "Popsynth.C84_demo_widths",
    "Popsynth.C84_family",
    "Popsynth.C84_attached",
    "Popsynth.C84_derived",
    "Popsynth.C84_distribution",
    "Popsynth.C84_demo",
    "Popsynth.C84_demo2",
    "Popsynth.C84_demo2_observation",
    "Popsynth.C84_demo2_luminosity",
    "Popsynth.C84_picks_all",
    "Popsynth.C84_picks_lower",
    "Popsynth.C84_picks_upper",
    "Popsynth.C84_picks_box",
    "Popsynth.C84_picks_soft",
    "Popsynth.C84_picks_coin",
    "Popsynth.C84_builtin",
    "Popsynth.C84_catalogue",
    "Popsynth.C84_given_number",
    "Popsynth.C84_thinning",
    "Popsynth.C84_counts",
    "Popsynth.C84_classes"
   ],
   "note": "C84_catalogue and C84_given_number for every company of samplers; C84_family, C84_attached and C84_derived build companies from samplers with secondaries, C84_distribution from a luminosity distribution; C84_builtin, C84_demo, C84_demo2 and C84_picks_* give the members. Under the hypotheses of C77 on the rest of the survey. The observed values of the demo sampler with errors are those of C84_demo2_observation. What the demo samplers raise without secondaries, values or positions and for negative widths: C84_demo2_no_secondary, C84_demo2_secondary, C84_demo2_positions, C84_demo2_dark, C84_demo_widths. C84_thinning, C84_counts and C84_classes give the laws of detected and undetected objects."
  },
  {
   "property": "C85",
   "status": "partial",
   "theorems": [
    "Popsynth.C85_missing_link",
    "Popsynth.C85_array_for_group",
    "Popsynth.C85_group_for_array",
    "Popsynth.C85_extra",
    "Popsynth.C85_violated_known",
    "Popsynth.C85_group_for_optional",
    "Popsynth.C85_missing_probability",
    "Popsynth.C85_missing_lf",
    "Popsynth.C85_violated_lf",
    "Popsynth.C85_missing_attribute",
    "Popsynth.C85_constructor",
    "Popsynth.C85_length",
    "Popsynth.C85_write",
    "Popsynth.C85_stan"
   ],
   "note": "Proved but for two faults of the code, stated as theorems: a file without known distances is refused with TypeError although the reader means to accept it (C85_violated_known), and an array in place of the group of luminosity parameters makes the reader drop the luminosity function without error (C85_violated_lf). C85_constructor says that the constructor raises AssertionError for every set of arguments outside Spec.GoodArgs whose auxiliary quantities are good."
  },
  {
   "property": "C86",
   "status": "proved",
   "theorems": [
    "Popsynth.C86_missing",
    "Popsynth.C86_distribution",
    "Popsynth.C86_selection",
    "Popsynth.C86_seed",
    "Popsynth.C86_no_spatial",
    "Popsynth.C86_no_luminosity",
    "Popsynth.C86_rate",
    "Popsynth.C86_parameter",
    "Popsynth.C86_selection_parameter",
    "Popsynth.C86_without_luminosity",
    "Popsynth.C86_without_selection",
    "Popsynth.C86_samplers",
    "Popsynth.C86_entry",
    "Popsynth.C86_entry_keys",
    "Popsynth.C86_type",
    "Popsynth.C86_init",
    "Popsynth.C86_sampler_selection",
    "Popsynth.C86_sampler_parameter",
    "Popsynth.C86_sampler_selection_parameter",
    "Popsynth.C86_secondary"
   ],
   "note": "One theorem per kind of fault; all start from a configuration that loads."
  },
  {
   "property": "C87",
   "status": "proved",
   "theorems": [
    "Popsynth.C87_counts",
    "Popsynth.C87_sphere",
    "Popsynth.C87_noisy",
    "Popsynth.C87_flatland"
   ],
   "note": "No auxiliary samplers, no distance or spatial selection. Assumes that the maximum over the grid bounds the density and that quad returns the exact integral; C87_sphere and C87_flatland need these only for the sphere and the line. C87_noisy (measurement errors) assumes that almost all fluxes are positive and that NumPy's logarithms and powers are exact."
  },
  {
   "property": "C88",
   "status": "partial",
   "theorems": [
    "Popsynth.C88_marks",
    "Popsynth.C88_processes",
    "Popsynth.C88_counts",
    "Popsynth.C88_fails",
    "Popsynth.C88_violated_coin"
   ],
   "note": "The law of known, unknown and undetected objects and the probability of a failure are proved. That draw_survey always returns is false: C88_violated_coin shows a positive probability of ValueError."
  },
  {
   "property": "C89",
   "status": "partial",
   "theorems": [
    "Popsynth.C89_getitem",
    "Popsynth.C89_copy",
    "Popsynth.C89_values",
    "Popsynth.C89_sort_iff",
    "Popsynth.C89_take",
    "Popsynth.C89_repeat",
    "Popsynth.C89_violated_concatenate",
    "Popsynth.C89_violated_joined_copy",
    "Popsynth.C89_plain",
    "Popsynth.C89_violated_sort"
   ],
   "note": "Indexing and copying are proved to keep objects together. For sorting, taking, repeating and joining the claim is false; C89_sort_iff, C89_take and C89_repeat say exactly when, C89_violated_sort and C89_violated_concatenate are counterexamples."
  },
  {
   "property": "C90",
   "status": "partial",
   "theorems": [
    "Popsynth.C90_count",
    "Popsynth.C90_distance",
    "Popsynth.C90_violated_low",
    "Popsynth.C90_volume",
    "Popsynth.C90_flux"
   ],
   "note": "Proved with the stated errors for densities of matter from 20% or 30% on. For lower densities the claim is false: C90_violated_low. The upper bounds for volumes and numbers have the factor 1/sqrt(1-r), r the density of radiation that the package subtracts from the dark energy. float32 rounding is not modelled."
  },
  {
   "property": "C91",
   "status": "partial",
   "theorems": [
    "Popsynth.C91_write",
    "Popsynth.C91_read",
    "Popsynth.C91_violated_lost",
    "Popsynth.C91_roundtrip_partial",
    "Popsynth.C91_builtin",
    "Popsynth.C91_ready_made",
    "Popsynth.C91_violated_order",
    "Popsynth.C91_violated_lowercase",
    "Popsynth.C91_violated_numpy",
    "Popsynth.C91_rewritten_partial",
    "Popsynth.C91_builtin_rewritten"
   ],
   "note": "C91_write says exactly when writing succeeds and what the file then has, C91_read exactly what reading gives. The round trip is proved up to the order of samplers for configurations without foreign values (C91_roundtrip_partial), for all built-in classes (C91_builtin) and for the ready-made populations (C91_ready_made). What was read is written again as exactly the same document (C91_rewritten_partial, C91_builtin_rewritten). Otherwise the claim is false: C91_violated_lost, C91_violated_numpy, C91_violated_lowercase, C91_violated_order."
  },
  {
   "property": "C92",
   "status": "proved",
   "theorems": [
    "Popsynth.C92_luminosity",
    "Popsynth.C92_distance",
    "Popsynth.C92_fluxes",
    "Popsynth.C92_selections",
    "Popsynth.C92_average_luminosity",
    "Popsynth.C92_average_distance"
   ],
   "note": "C92_luminosity, C92_distance (numbers on both sides of a threshold) and C92_average_luminosity, C92_average_distance (averages over the detected and the undetected objects) for surveys as in C74 and C75 (no auxiliary samplers, no selections other than that of fluxes); C92_fluxes and C92_selections discharge the hypotheses for the fluxes and selections of the package. Luminosities are positive almost surely."
  },
  {
   "property": "C93",
   "status": "partial",
   "theorems": [
    "Popsynth.C93_luminosities",
    "Popsynth.C93_sums",
    "Popsynth.C93_unbiased",
    "Popsynth.C93_violated_textbook"
   ],
   "note": "C93_luminosities, C93_sums and C93_unbiased prove the claim with the volumes in which the package detects objects. With the volumes of an inverse-square law it is false: C93_violated_textbook. Setting as in C78: exact quadrature, horizons inside the sphere, no other selection."
  },
  {
   "property": "C94",
   "status": "partial",
   "theorems": [
    "Popsynth.C94_uniform",
    "Popsynth.C94_half",
    "Popsynth.C94_violated_textbook"
   ],
   "note": "C94_uniform and C94_half prove the claim with the volumes in which the package detects objects. With the volumes of an inverse-square law it is false: C94_violated_textbook. Setting as in C78 and C93: exact quadrature, horizons inside the sphere, no other selection."
  },
  {
   "property": "C95",
   "status": "proved",
   "theorems": [
    "Popsynth.C95_errors",
    "Popsynth.C95_gain",
    "Popsynth.C95_gain_strict",
    "Popsynth.C95_loss",
    "Popsynth.C95_survey"
   ],
   "note": "C95_errors (any density and flux), C95_gain, C95_gain_strict, C95_loss (sphere of constant density), C95_survey (the count of draw_survey). Arithmetic of the errors is exact (Spec.Precise); luminosities are positive almost surely; setting of surveys as in C78 (exact quadrature, no other selection)."
  },
  {
   "property": "C96",
   "status": "proved",
   "theorems": [
    "Popsynth.C96_fluxes",
    "Popsynth.C96_half",
    "Popsynth.C96_selections"
   ],
   "note": "C96_fluxes and C96_half for surveys as in C74 and C75 (no auxiliary samplers, no selections other than that of fluxes); C96_selections discharges the hypothesis for hard and soft lower limits, coins and no selection. Arithmetic of the errors is exact (Spec.Precise); fluxes are positive almost surely."
  },
  {
   "property": "C97",
   "status": "proved",
   "theorems": [
    "Popsynth.C97_correlation",
    "Popsynth.C97_selections",
    "Popsynth.C97_fluxes"
   ],
   "note": "C97_correlation for surveys as in C74 and C75 (no auxiliary samplers, no selections other than that of fluxes), with or without log-normal measurement errors; C97_selections and C97_fluxes discharge its hypotheses for the selections and fluxes of the package. Luminosities are positive almost surely and the arithmetic of the errors is exact (Spec.Precise)."
  },
  {
   "property": "C98",
   "status": "partial",
   "theorems": [
    "Popsynth.C98_command",
    "Popsynth.C98_pieces",
    "Popsynth.C98_no_git",
    "Popsynth.C98_checkout",
    "Popsynth.C98_violated_decode",
    "Popsynth.C98_keywords",
    "Popsynth.C98_archive",
    "Popsynth.C98_no_file",
    "Popsynth.C98_violated_comment",
    "Popsynth.C98_violated_missing",
    "Popsynth.C98_regex",
    "Popsynth.C98_any_file",
    "Popsynth.C98_which_git"
   ],
   "note": "C98_command characterises run_command exactly. C98_pieces, C98_checkout and C98_no_git connect it with C82; C98_which_git says which command is used. C98_keywords, C98_archive and C98_no_file are about the version file; C98_regex (the leftmost, longest match) and C98_any_file (the last line that counts) say what is read from any file. False as stated: output that is not UTF-8 raises an exception that leaves get_versions (C98_violated_decode); a comment with a quotation mark behind an assignment becomes part of the keyword (C98_violated_comment); a file without the names of references raises KeyError instead of leading to the next method (C98_violated_missing)."
  },
  {
   "property": "C99",
   "status": "proved",
   "theorems": [
    "Popsynth.C99_luminosities",
    "Popsynth.C99_distances",
    "Popsynth.C99_unbiased",
    "Popsynth.C99_unbiased_distances",
    "Popsynth.C99_total",
    "Popsynth.C99_sphere"
   ],
   "note": "For surveys as in C74 and C75 (no auxiliary samplers, no selections other than that of fluxes). C99_sphere computes the probability for a flux-limited survey of a sphere of constant density without measurement errors."
  },
  {
   "property": "C100",
   "status": "proved",
   "theorems": [
    "Popsynth.C100_selected",
    "Popsynth.C100_selected_values",
    "Popsynth.C100_unrelated",
    "Popsynth.C100_values",
    "Popsynth.C100_additive"
   ],
   "note": "For attached samplers without secondaries, in surveys as in C80. C100_additive discharges the hypothesis for the samplers of the package with selections that look at most at the observed value (bounds, boxes, soft thresholds, coins, none)."
  },
  {
   "property": "C101",
   "status": "partial",
   "theorems": [
    "Popsynth.C101_kept",
    "Popsynth.C101_succeeds",
    "Popsynth.C101_raises",
    "Popsynth.C101_again",
    "Popsynth.C101_processes",
    "Popsynth.C101_after",
    "Popsynth.C101_violated_race"
   ],
   "note": "C101_kept, C101_succeeds, C101_raises, C101_again for a process on its own; C101_processes for any number of processes and all interleavings: nothing is lost, and every process that succeeds has the configuration it would have alone; C101_after: whenever they are stopped, the next import succeeds. That processes do not get in each other's way is false: get_path_of_log_dir tests for the directory and then makes it without exist_ok, so one of two processes can raise FileExistsError (C101_violated_race, for every file system with a configuration and without that directory). No links, no deletions by other programs, single writes are atomic."
  },
  {
   "property": "C102",
   "status": "proved",
   "theorems": [
    "Popsynth.C102_found",
    "Popsynth.C102_superposition",
    "Popsynth.C102_numbers",
    "Popsynth.C102_degenerate",
    "Popsynth.C102_parts"
   ],
   "note": "C102_found for one survey, C102_superposition for proportional intensities, C102_numbers for any two surveys, C102_parts for surveys that differ in density and completeness, C102_degenerate. Under the hypotheses of C74. The two generators are independent: the surveys must not have the same seed (with the same seed they are the same survey, C21). That the mean number and the largest density on the grid scale with the density is assumed in Variant."
  },
  {
   "property": "C103",
   "status": "proved",
   "theorems": [
    "Popsynth.C103_completeness",
    "Popsynth.C103_unbiased",
    "Popsynth.C103_only",
    "Popsynth.C103_flux_weights"
   ],
   "note": "C103_completeness, C103_unbiased, C103_only and C103_flux_weights, under the hypotheses of C84 on the survey. Rests on C84_thinning."
  },
  {
   "property": "C104",
   "status": "partial",
   "theorems": [
    "Popsynth.C104_levels",
    "Popsynth.C104_console",
    "Popsynth.C104_reset",
    "Popsynth.C104_console_unique",
    "Popsynth.C104_user",
    "Popsynth.C104_dev",
    "Popsynth.C104_files",
    "Popsynth.C104_violated_lines"
   ],
   "note": "C104_levels, C104_console (messages without escape characters), C104_reset (all messages, for the terminal of the specification, which knows only ESC [ number m), C104_console_unique, C104_user (times of 19 characters), C104_dev and C104_files (Spec.Loggable: times of 19 characters, no newlines, no bars in the names of loggers and functions). Newlines in messages are not escaped: such a record in usr.log cannot be told from two records (C104_violated_lines), so reading files back fails without that assumption."
  },
  {
   "property": "C105",
   "status": "proved",
   "theorems": [
    "Popsynth.C105_default",
    "Popsynth.C105_draw",
    "Popsynth.C105_missing",
    "Popsynth.C105_no_flag",
    "Popsynth.C105_logarithm",
    "Popsynth.C105_units_log",
    "Popsynth.C105_units_lin",
    "Popsynth.C105_units_matter"
   ],
   "note": "C105_default identifies the default with the draw of the other theorems; C105_draw, C105_missing and C105_no_flag hold for any numbers, C105_logarithm, C105_units_log, C105_units_lin and C105_units_matter over the reals, without rounding, and with positive values where logarithms are taken."
  },
  {
   "property": "C106",
   "status": "proved",
   "theorems": [
    "Popsynth.C106_configured",
    "Popsynth.C106_configured_fluxes",
    "Popsynth.C106_configured_noisy",
    "Popsynth.C106_histogram",
    "Popsynth.C106_distances",
    "Popsynth.C106_fluxes",
    "Popsynth.C106_quantities"
   ],
   "note": "Under the hypotheses of C84 on the survey. C106_histogram for bins in the space of everything random about an object; C106_distances, C106_fluxes and C106_quantities for the arrays of the population (selected and non_selected). C106_configured says the same of the distances in a survey whose synth is read from a configuration, with the means as integrals of the configured density over the range, under the hypotheses of C87_counts, and C106_configured_noisy with measurement errors, under those of C87_noisy; C106_configured_fluxes is the same for the fluxes without measurement errors. Rests on C84_thinning and C75_thinning."
  }
 ]
}