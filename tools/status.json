{
 "C01": {
  "status": "proved",
  "note": "Every history of reads/assignments/fix toggles; number type arbitrary."
 },
 "C02": {
  "status": "proved",
  "note": "Acceptance iff free and within bounds; NaN covered as incomparable value."
 },
 "C03": {
  "status": "proved",
  "note": "Instances do not interfere; fixing is shared by the class."
 },
 "C04": {
  "status": "partial",
  "note": "Violated: the class-creation guard never fires (norm_counter is never incremented), so a class with two normalization parameters is accepted. Proved: what a working guard would accept (partial) and which parameter ends up as normalization."
 },
 "C05": {
  "status": "proved",
  "note": "For arbitrary decidable <=, NaN included."
 },
 "C06": {
  "status": "proved",
  "note": "All 16 flag combinations; missing source raises and changes neither mask nor random state."
 },
 "C07": {
  "status": "proved",
  "note": "Any number of selections, order and repetition irrelevant."
 },
 "C08": {
  "status": "proved",
  "note": "All histories of select/reset/set_*."
 },
 "C09": {
  "status": "proved",
  "note": ""
 },
 "C10": {
  "status": "proved",
  "note": "Galactic latitude itself comes from astropy and is an input of the model."
 },
 "C11": {
  "status": "proved",
  "note": "Bernoulli trials are an arbitrary function of probability and random state; scipy's batch draw is modelled as sequential draws (trusted). Logistic formula over the reals. C11_trials says what the trials are: one per probability, in order, each from the random numbers the one before left."
 },
 "C58": {
  "status": "partial",
  "note": "Parameter-level truth proved for all histories. Survey level proved for attached samplers, the derived sampler, their direct dependencies, and the luminosity distribution; violated for deeper dependencies and for untouched defaults of the spatial distribution (witnesses)."
 },
 "C12": {
  "status": "partial",
  "note": "Exactly-once, dependencies-first, unreachable untouched, cycles never return, well-behaved samplers (also those that read positions, luminosities and their dependencies) return: proved for all graphs. That every unsampled reachable sampler is drawn needs dependencies of drawn samplers to be drawn (invariant of all draw histories, proved); it fails when a dependency is attached after drawing (witness)."
 },
 "C13": {
  "status": "proved",
  "note": ""
 },
 "C14": {
  "status": "proved",
  "note": "BrokenPowerLawAuxSampler enters as code whose observation sampler always raises."
 },
 "C15": {
  "status": "proved",
  "note": "Also shown: a shared secondary that is reset through one parent leaves the other parent stale."
 },
 "C16": {
  "status": "proved",
  "note": "get_secondary_properties; the survey level is in Props/Survey. Witnesses that distinct non-empty names are needed."
 },
 "C17": {
  "status": "partial",
  "note": "Positions: proved for every sampler of a survey. Luminosities: proved for attached samplers and direct dependencies; violated for dependencies of dependencies (witness)."
 },
 "C27": {
  "status": "partial",
  "note": "Proved: whenever draw_distance or the expected count returns, every parameter reads as before. Violated: with normalize=True an untouched default raises UnboundLocalError, and an exception leaves the normalization at one."
 },
 "C28": {
  "status": "partial",
  "note": "Proved for every class of the normalized form and all five flagged built-ins: Poisson mean is the normalization parameter, reported density integrates to one. Violated: without progress bar the distances are not sampled from that density; a rejected assignment gives KeyError; unflagged built-ins give one."
 },
 "C45": {
  "status": "proved",
  "note": "Accepted only, in range, exactly the first accepted trial, acceptance probability and law, proportional iff bounded. Additional finding: draw_distance uses the maximum over a 500-point grid, which need not be a bound; a vanishing density never terminates."
 },
 "C46": {
  "status": "partial",
  "note": "Proved with normalize=False. Violated with normalize=True: the silent path compares unnormalized densities with the normalized bound."
 },
 "C18": {
  "status": "proved",
  "note": "Every returned survey, arbitrary user code."
 },
 "C19": {
  "status": "proved",
  "note": "Fresh, unshared selectors; sharing a selector violates it (witness)."
 },
 "C20": {
  "status": "proved",
  "note": ""
 },
 "C22": {
  "status": "partial",
  "note": "With a non-unity flux selection the observed flux is the inverse log of log flux plus one normal draw per object, in order; positive over the reals. Violated when the flux selection is a UnitySelection: flux_sigma is silently ignored (general theorem). A returned survey has every observed flux finite. Fluxes and noise of different lengths raise unless one is single (C22_lengths)."
 },
 "C23": {
  "status": "partial",
  "note": "Product over distance, luminosity and all quantities with a non-unity selection, for every graph. Violated: quantities with a UnitySelection are left out even if they define a probability (witness)."
 },
 "C26": {
  "status": "partial",
  "note": "Violated: with detections and no known distance the log message takes max of an empty array and the survey raises ValueError (general theorem and witness)."
 },
 "C21": {
  "status": "partial",
  "note": "Proved for surveys whose random numbers all come from numpy's generator: the outcome does not depend on the generator state before seeding, nor on values left over by an earlier survey where the survey cannot see them; a survey drawn from untouched samplers, reset and drawn again returns the same population (selectors not shared, secondaries using luminosities only below attached samplers, parameters not set by the survey). Violated when a sampler uses numba's own generator, which np.random.seed does not reach (witness), and when a secondary of the derived luminosity sampler sees luminosities that reset does not clear (witness)."
 },
 "C24": {
  "status": "proved",
  "note": "A survey whose parts each do their own job (Spec.Configured) returns a population exactly when there is a luminosity distribution or a derived luminosity sampler, and raises RuntimeError exactly when there is neither; with a derived sampler the distribution is never drawn from and the reported luminosities are the derived sampler's. The built-in selections with set parameters satisfy the hypothesis on selectors (C24_builtin_selections, C12_builtin_selectable)."
 },
 "C25": {
  "status": "partial",
  "note": "clean(reset=True) restores a fresh synth except model spaces (proved). Violated: drawing a second survey without clean fails or reuses stale selector data (general theorem and witnesses); clean leaves model spaces in place (witness)."
 },
 "C30": {
  "status": "proved",
  "note": "Construction succeeds iff the arguments are consistent; counts follow for every constructed population."
 },
 "C31": {
  "status": "partial",
  "note": "Proved when no quantity or model space uses a name the export writes itself; C31_violated_name shows a clash overwriting entries of the export."
 },
 "C32": {
  "status": "partial",
  "note": "Objects, order, values, detection flags and counts proved; the code tests object numbers against known distances (C32_violated_known), and a sub-population cannot be written to a file (C32_violated_write)."
 },
 "C33": {
  "status": "partial",
  "note": "Protected names keep their values under every sequence of assignments; names of properties can never be taken and methods stay available otherwise (C33_fixed_names); a quantity named like a method hides it (C33_violated_method)."
 },
 "C34": {
  "status": "proved",
  "note": "Split, interleaving, index arrays, masks and slices, for every mask and values."
 },
 "C35": {
  "status": "proved",
  "note": "Elementwise functions on variables, scalars and arrays with broadcasting; refusals characterised."
 },
 "C36": {
  "status": "partial",
  "note": "Effect of in-place operators characterised exactly; the observed values come out right only when they equal the latent ones or are overwritten (C36_violated, C36_violated_aliased)."
 },
 "C37": {
  "status": "partial",
  "note": "Selecting twice works for boolean selections; violated for float and int selection arrays."
 },
 "C29": {
  "status": "proved",
  "note": "Every call and every finite sequence of calls; sampler names are fixed, everything else about samplers may change in between."
 },
 "C44": {
  "status": "partial",
  "note": "Soundness, idempotence and (up to the observed nodes of a derived luminosity sampler's dependencies) completeness proved; stale nodes, missing edges and failures shown as violations."
 },
 "C57": {
  "status": "partial",
  "note": "Grid in exact arithmetic, every sequence of calls, acceptance and export proved; export fails when an attached quantity q has q_obs equal to the name."
 },
 "C59": {
  "status": "partial",
  "note": "Violated: parameters, model spaces and graph are those of the synth now. Stan data and sub-populations only depend on its model spaces."
 },
 "C56": {
  "status": "partial",
  "note": "Levels restored in every history, context manager proved for every body; handlers of a logger, what each mode and the warning filter let through. Violated for warnings silenced before, progress bars, the developer log, two switches in a row, and critical messages, which are written in the silent modes."
 },
 "C38": {
  "status": "partial",
  "note": "Round trip and refusals for every nested dictionary by structural induction; violated for the string FILL_VALUE, bytes that are text and the empty dictionary. What h5py itself refuses is a parameter taken to accept everything."
 },
 "C39": {
  "status": "partial",
  "note": "clean_graph_dict after fill_graph_dict is the identity for every nested dictionary; a reloaded graph has the same nodes and edges but loses directions and observed flags (violations proved)."
 },
 "C40": {
  "status": "partial",
  "note": "Round trip of everything but the probability (dataset misspelt), the forms, the type of the name and the graph; unset parameters and sub-populations cannot be written. Numbers are assumed to survive storage."
 },
 "C41": {
  "status": "partial",
  "note": "Round trip proved for configurations whose selections set only what from_dict restores, with distinct sampler names and acyclic secondaries; inherited selection parameters, selection flags, same-named secondaries and derived luminosity samplers are lost (C41_violated_*). Equality of the drawn surveys is C68_rebuilt_partial."
 },
 "C42": {
  "status": "partial",
  "note": "Every section but the auxiliary samplers is unchanged; with auxiliary samplers the input always loses keys and a second call raises KeyError (C42_violated)."
 },
 "C43": {
  "status": "partial",
  "note": "Same synthesizer up to the order of the samplers if the first key of every section stays first; otherwise false (C43_violated_*). File formats themselves are modelled in C39/C40 only."
 },
 "C47": {
  "status": "partial",
  "note": "Proved for arrays of floats and all parameters in the range of the property (weights, non-negativity, positivity inside, continuity at the break, zero outside, integral one, and phi is the same density). Violated for arrays of integers, where the density is stored in an array of integers and loses its fraction (C47_violated_int)."
 },
 "C48": {
  "status": "partial",
  "note": "Proved for 0 < Lmin < Lbreak < Lmax and exponents other than -1: range, inversion of each piece and the law of coin plus inverse transform. Violated for exponents of -1, which the parameters accept: the weights are nan and the Bernoulli trials raise ValueError (C48_violated_minusOne)."
 },
 "C49": {
  "status": "proved",
  "note": "Exact real arithmetic; the uniform number is an argument."
 },
 "C50": {
  "status": "partial",
  "note": "Normalized density and draws following it proved for Pareto (index > 0), Schechter (index > -1), log-normal (width > 0), log-uniform (increasing limits), broken power law (exponents other than -1) and the single luminosity. Violated: the log10-normal function integrates to ln 10 for all parameters; negative or zero Pareto indices, Schechter indices of at most -1, zero widths and limits in the wrong order are accepted by the parameters; integer arrays truncate the Pareto function; a uniform number of exactly zero gives an infinite Schechter luminosity."
 },
 "C51": {
  "status": "partial",
  "note": "All three samplers return only values in [lower, upper] or raise (C51_inside). The whole interval is covered by the normal sampler and by the log-normal one for positive lower limits. Violated by a lower limit of zero (cut at the 1e-5 quantile) and by the base-ten sampler, which takes the natural logarithm of the lower limit: too small an interval above one, none for 10 and 100, failed assertions below one. With width zero the log-normal sampler returns its location if that is strictly inside and refuses otherwise, the normal one always refuses (C51_zero_width)."
 },
 "C52": {
  "status": "partial",
  "note": "Ranges, isotropy (joint law of cos(theta) and phi), preserved radius, and range and density of viewing angles for maximal angles in (0, 180] degrees. Violated: a maximal angle of zero is accepted and gives 0/0; the declination sampler and the positions of the spiral galaxy are not isotropic (C52_violated_*)."
 },
 "C53": {
  "status": "proved",
  "note": "Exact real arithmetic; the radiation density, computed from h0 and two temperatures, is an arbitrary non-negative number."
 },
 "C54": {
  "status": "partial",
  "note": "Linear, positive, strictly decreasing and with a horizon for every limit: spherical distributions at all distances, cosmological ones at positive redshifts. Violated at redshift zero (infinite) and by the flat land (constant)."
 },
 "C55": {
  "status": "proved",
  "note": "One theorem per class, for all numbers, seeds and descriptor flags: with allowed values exactly these values are set, read and copied to the synth, with the right classes, seeds, rate flag and name; otherwise RuntimeError. None as an argument is not covered."
 },
 "C60": {
  "status": "proved",
  "note": "For every returned survey. The horizon statement is over the reals, for a monotone distance-flux relation."
 },
 "C61": {
  "status": "proved",
  "note": "Sequences of setter calls (synth and samplers), refused calls and clean(reset=False) from any state; clean without reset does not undo selections (witness)."
 },
 "C62": {
  "status": "partial",
  "note": "Proved for all classes over an arbitrary number type with the numerical primitives as parameters: the values drawn, the defaults, the limits of the truncated samplers, what is never observed and the probabilities. Violated by the broken power law: it is observed by default but declares no sigma, so its draw never returns (C62_violated_broken_power_law). C62_by_name and C62_by_name_broken: the same for samplers that a configuration names by their class."
 },
 "C63": {
  "status": "proved",
  "note": "Soundness, completeness and uniqueness of the description, for all registries and dictionaries without repeated keys. What exceptions are raised for other dictionaries is not part of it."
 },
 "C64": {
  "status": "partial",
  "note": "Proved for all built-in classes: names, constructors, what new selections look at, parameters, limits, defaults, agreement with the declarations used in the other models, round trip of synths made of them, re-reading, and that to_dict writes proper dictionaries. Violated: abstract base classes and Distribution (C64_violated_base), the sky samplers, which import popsynth does not register (C64_violated_sky), flux selections of samplers, which lose their parameters (C64_violated_flux, C64_violated_flux_roundtrip), and circular secondaries, which from_dict reads but to_dict cannot write (C64_violated_circle)."
 },
 "C65": {
  "status": "partial",
  "note": "Proved: what any draw and any survey leaves (C65_draw, C65_survey), retries after any history (C65_retry), reset and redraw (C65_reset), random numbers of a failed selection (C65_selection_raises). Violated: a selection that failed is never drawn again, so correcting its cause does not help without a reset (C65_violated_repair), and a repeated survey reports values of the failed attempt (C65_violated_stale)."
 },
 "C66": {
  "status": "partial",
  "note": "Exact real arithmetic, quadrature exact for the density at hand. Proved: the mean is what the quadrature makes of the density (C66_count), the integral of the documented density over a ball for the spherical distributions (C66_ball, C66_constant), over a length in flat land, and over the volume element of the package for cosmological ones, which is the comoving volume per steradian (C66_cosmological, C66_volume); fewer transient events than steady objects (C66_rate). Violated: nothing multiplies by the 4 pi steradians of the sky (C66_violated_sky), r0 of the star-formation distribution is not the local density (C66_violated_local), zmin and zmax do not limit redshifts (C66_violated_limits)."
 },
 "C67": {
  "status": "partial",
  "note": "Matplotlib, ipyvolume and IPython are taken to show the values given to them; colours of the spheres in exact arithmetic. Proved: every population has one catalogue of objects (C67_catalog); what is drawn of it by each plot, and where (C67_detected, C67_true_drawn, C67_limits, C67_fluxes, C67_luminosities, C67_distances, C67_sphere, C67_arrow_tips), the colour scale (C67_colours, C67_colours_positive, C67_colours_unit), the displayed numbers (C67_display, C67_repr). Violated: the fluxes labelled true are the observed ones (C67_violated_true), so that the arrows have no length (C67_violated_arrows); if every object is detected the figure of the spheres is drawn but not returned, and use_log has no effect (C67_violated_figure)."
 },
 "C68": {
  "status": "partial",
  "note": "Proved without conditions on the configuration: synths whose objects correspond one to one and hold the same data draw the same population and leave the same random state, or raise the same exception, in any state (C68_objects). Proved for configurations to_dict can describe completely, made of new and different objects: equally configured synths draw the same survey (C68_configured), the one rebuilt by from_dict does (C68_rebuilt_partial), writing again gives the same dictionary (C68_same_dict), and to_dict read off memory is the dictionary of the configuration (C68_dict_in_memory). Violated: a selector object given to two samplers is written twice and rebuilt as two, and the survey differs (C68_violated_shared). Populations are compared up to which selector objects their auxiliary quantities refer to."
 },
 "C69": {
  "status": "partial",
  "note": "Proved: which sections a display has and what they show (C69_sections), each once if names differ (C69_once), when printing raises (C69_repr_raises), that text and display agree (C69_same_values), that values shown are the ones used (C69_values), which parameters have a row (C69_rows), and that every sampler drawn by a survey is shown if secondaries do not nest, only the derived luminosity sampler has any, and names differ (C69_complete_partial). Violated: an attached sampler with the name of a sampler the derived luminosity sampler depends on is left out (C69_violated_hidden), so are secondaries of attached samplers (C69_violated_secondary) and parameters that only have their default (C69_violated_default); a synth without luminosity cannot be printed (C69_violated_print)."
 },
 "C70": {
  "status": "partial",
  "note": "OmegaConf's merge as documented, conversion of values arbitrary. Proved: what the merged configuration has at every path (C70_merge), exactly which files are accepted (C70_accepted), that the file written by the first import changes nothing at later ones (C70_written), that an existing file is kept whatever happens (C70_file_kept), what logging and cosmology take from a configuration (C70_settings), the settings without a file (C70_defaults), and that an accepted file can be used if the levels are names Python knows (C70_usable_partial). Violated: levels are not checked when the file is read, so a file with the level info is accepted and then the import raises (C70_violated_level)."
 },
 "C71": {
  "status": "proved",
  "note": "For the 25 classes of popsynth/populations. The luminosity of the five spatial ones is any object of a built-in luminosity class with parameters assigned (or none). from_dict assigns parameters without regard to class-level free flags, see DESIGN.md. C71_names and C71_in_memory_builtin discharge the hypothesis on names for the classes of the package."
 },
 "C72": {
  "status": "partial",
  "note": "Proved for detections: a definite demand (bounds, boxes, hard flux limits, galactic plane, distance range, no selection) is met by every detected object, and with only such demands every object that meets them is detected (C72_detects); without a distance selection every detected object has a known distance (C72_known). Violated: a distance selection that states bounds is accepted by from_dict, but draw_survey never gives it the distances and no survey returns (C72_violated_distance). Random selections (Bernoulli, soft) are not definite: C72_detects says nothing about them; the samplers must not depend on each other in a cycle and must have names."
 },
 "C73": {
  "status": "partial",
  "note": "Proved: rejection_sample and draw_distance of every class of the modelled form almost surely return and leave independent distances with density proportional to min(dens, ymax), exact iff the bound holds almost everywhere; the sphere has P(r <= t) = (t/r_max)^3; with normalize=True and progress bar the law is the shape of the density; sky positions are independent and isotropic; distances and positions are independent. Violated: with normalize=True and no progress bar the sphere does not follow its density; bumps between grid points are cut off. The fairness of numpy's generator is a hypothesis, shown satisfiable by a generator made of a sequence of independent uniform numbers."
 },
 "C74": {
  "status": "proved",
  "note": "For synths without auxiliary samplers and with UnitySelection on distances, normalize=False. numpy's laws (uniform, Poisson, normal, Bernoulli) and the law of the luminosities are hypotheses (Spec.Lawful, Spec.Counted, Spec.FairBern), shown satisfiable together by a generator made of a sequence of independent triples and a survey of a sphere with soft flux limit. Distances follow the density cut off at its largest value on the grid, see C73."
 },
 "C75": {
  "status": "proved",
  "note": "Same assumptions as C74. The thinning theorem for Poisson processes on lists is proved from Mathlib's product measures (Lemmas/PoissonProcess.lean); selected and non-selected parts are those of SimulatedVariable."
 },
 "C76": {
  "status": "partial",
  "note": "Holds for six of the seven classes; fails for phi of Log10NormalDistribution, which is log(10) times the density (C76_violated_log10; its draws are right, C76_log10Normal_partial). Exact reals; the laws of numpy's and scipy's numbers are hypotheses (Spec.FairNumbers, Spec.IsGammaincinv), shown satisfiable in Props/LawLumExample.lean."
 },
 "C77": {
  "status": "proved",
  "note": "Same assumptions as C74, and the density does not exceed its highest value on the grid and the quadrature is exact; satisfied by the survey in Props/LawLumExample.lean."
 },
 "C78": {
  "status": "partial",
  "note": "The law of the number of detections is proved, with horizon sqrt(L/(4 pi F)) - 1 (C78_counts, C78_survey). The Euclidean scaling fails because SphericalDistribution.transform adds one to the distance: a survey four times deeper can expect 27 instead of 8 times as many objects (C78_violated_euclid)."
 },
 "C79": {
  "status": "partial",
  "note": "Proved for all thirteen classes and their measurement errors, except where the code deviates: the truncated log-normal classes miss part of the range (C79_violated_truncLog10 for lower limits above one, C79_violated_truncLog_zero and C79_violated_truncLog10_zero for the lower limit zero); the laws they do draw are C79_truncLogNormal_partial, C79_truncLog10Normal_partial and C79_truncLog10_zero_partial. For lower limits between zero and one the base-ten class fails its own assertion; C79_violated_truncLog10_below gives the probability, which tends to one with the number of objects. Exact reals (Spec.ExactAux); the laws of the underlying random numbers are hypotheses (Spec.FairAux), shown satisfiable in Props/LawAuxExample.lean."
 },
 "C80": {
  "status": "proved",
  "note": "Samplers with secondaries are not covered. Each sampler may use three random reals per object (true value, error, selection); C80_builtin_plays and C80_chooses_* show that the built-in classes of C79 with unity, lower, upper, box, soft (use_log) and Bernoulli selections are of this form. The laws of the random numbers are hypotheses as for C74 and C79, shown satisfiable together in Props/LawAttachedExample.lean, where two samplers select a half and a third of the objects."
 },
 "C81": {
  "status": "partial",
  "note": "Violated: __subclasscheck__ uses _abc_cache, _abc_negative_cache and _abc_registry, which ParameterMeta never creates, so every call raises AttributeError, even for a class and itself (C81_violated, all hierarchies). Proved: the TypeError for other objects, and that with the three sets on every class the answer would be right whatever the caches contain (C81_subclass_partial, C81_meaning), that answers of hooks are returned (C81_hook) and that exactly the class asked about is recorded, on the right side (C81_recorded). If only a base has the sets, what is registered with the base passes for a subclass of the derived class (C81_violated_inherited)."
 },
 "C82": {
  "status": "partial",
  "note": "Violated in corners: a tag with a plus sign can have the version of another tree (C82_violated_plus), the tag v alone counts as none (C82_violated_empty), an archive without tags takes a branch with a digit for a tag (C82_violated_branch), and when git fails after describe has worked the TypeError leaves get_versions (C82_violated_escape), likewise the AttributeError when only the date fails (C82_violated_date). Proved otherwise: the regular expression (C82_match), reading (C82_parse, C82_untagged), that versions name trees for tags that are not empty and have no plus (C82_names), releases, the text of every style (C82_untagged_texts, C82_tagged_texts, C82_report), dates, archives, directories. Text is a list of characters; white space and digits are those of ASCII."
 },
 "C83": {
  "status": "partial",
  "note": "Proved: open methods (C83_abstract), what each base class leaves open and when objects can be made (C83_duties, C83_usable), what every sequence of class statements leaves in the registry (C83_registry, C83_user), when a class statement raises (C83_raises), and that the package's own statements leave the registries of C64 (C83_package). Violated: a class derived from a concrete class without a name of its own replaces that class in configurations (C83_violated_replaced); selections and samplers without a name make the class statement raise AttributeError (C83_violated_unnamed). AutoRegister of the package class_registry is modelled from its documentation."
 },
 "C84": {
  "status": "proved",
  "note": "C84_catalogue and C84_given_number for every company of samplers; C84_family, C84_attached and C84_derived build companies from samplers with secondaries, C84_distribution from a luminosity distribution; C84_builtin, C84_demo, C84_demo2 and C84_picks_* give the members. Under the hypotheses of C77 on the rest of the survey. The observed values of the demo sampler with errors are those of C84_demo2_observation. What the demo samplers raise without secondaries, values or positions and for negative widths: C84_demo2_no_secondary, C84_demo2_secondary, C84_demo2_positions, C84_demo2_dark, C84_demo_widths. C84_thinning, C84_counts and C84_classes give the laws of detected and undetected objects."
 },
 "C85": {
  "status": "partial",
  "note": "Proved but for two faults of the code, stated as theorems: a file without known distances is refused with TypeError although the reader means to accept it (C85_violated_known), and an array in place of the group of luminosity parameters makes the reader drop the luminosity function without error (C85_violated_lf). C85_constructor says that the constructor raises AssertionError for every set of arguments outside Spec.GoodArgs whose auxiliary quantities are good."
 },
 "C86": {
  "status": "proved",
  "note": "One theorem per kind of fault; all start from a configuration that loads."
 },
 "C87": {
  "status": "proved",
  "note": "No auxiliary samplers, no distance or spatial selection. Assumes that the maximum over the grid bounds the density and that quad returns the exact integral; C87_sphere and C87_flatland need these only for the sphere and the line. C87_noisy (measurement errors) assumes that almost all fluxes are positive and that NumPy's logarithms and powers are exact."
 },
 "C88": {
  "status": "partial",
  "note": "The law of known, unknown and undetected objects and the probability of a failure are proved. That draw_survey always returns is false: C88_violated_coin shows a positive probability of ValueError."
 },
 "C89": {
  "status": "partial",
  "note": "Indexing and copying are proved to keep objects together. For sorting, taking, repeating and joining the claim is false; C89_sort_iff, C89_take and C89_repeat say exactly when, C89_violated_sort and C89_violated_concatenate are counterexamples."
 },
 "C90": {
  "status": "partial",
  "note": "Proved with the stated errors for densities of matter from 20% or 30% on. For lower densities the claim is false: C90_violated_low. The upper bounds for volumes and numbers have the factor 1/sqrt(1-r), r the density of radiation that the package subtracts from the dark energy. float32 rounding is not modelled."
 },
 "C91": {
  "status": "partial",
  "note": "C91_write says exactly when writing succeeds and what the file then has, C91_read exactly what reading gives. The round trip is proved up to the order of samplers for configurations without foreign values (C91_roundtrip_partial), for all built-in classes (C91_builtin) and for the ready-made populations (C91_ready_made). What was read is written again as exactly the same document (C91_rewritten_partial, C91_builtin_rewritten). Otherwise the claim is false: C91_violated_lost, C91_violated_numpy, C91_violated_lowercase, C91_violated_order."
 },
 "C92": {
  "status": "proved",
  "note": "C92_luminosity, C92_distance (numbers on both sides of a threshold) and C92_average_luminosity, C92_average_distance (averages over the detected and the undetected objects) for surveys as in C74 and C75 (no auxiliary samplers, no selections other than that of fluxes); C92_fluxes and C92_selections discharge the hypotheses for the fluxes and selections of the package. Luminosities are positive almost surely."
 },
 "C93": {
  "status": "partial",
  "note": "C93_luminosities, C93_sums and C93_unbiased prove the claim with the volumes in which the package detects objects. With the volumes of an inverse-square law it is false: C93_violated_textbook. Setting as in C78: exact quadrature, horizons inside the sphere, no other selection."
 },
 "C94": {
  "status": "partial",
  "note": "C94_uniform and C94_half prove the claim with the volumes in which the package detects objects. With the volumes of an inverse-square law it is false: C94_violated_textbook. Setting as in C78 and C93: exact quadrature, horizons inside the sphere, no other selection."
 },
 "C95": {
  "status": "proved",
  "note": "C95_errors (any density and flux), C95_gain, C95_gain_strict, C95_loss (sphere of constant density), C95_survey (the count of draw_survey). Arithmetic of the errors is exact (Spec.Precise); luminosities are positive almost surely; setting of surveys as in C78 (exact quadrature, no other selection)."
 },
 "C96": {
  "status": "proved",
  "note": "C96_fluxes and C96_half for surveys as in C74 and C75 (no auxiliary samplers, no selections other than that of fluxes); C96_selections discharges the hypothesis for hard and soft lower limits, coins and no selection. Arithmetic of the errors is exact (Spec.Precise); fluxes are positive almost surely."
 },
 "C97": {
  "status": "proved",
  "note": "C97_correlation for surveys as in C74 and C75 (no auxiliary samplers, no selections other than that of fluxes), with or without log-normal measurement errors; C97_selections and C97_fluxes discharge its hypotheses for the selections and fluxes of the package. Luminosities are positive almost surely and the arithmetic of the errors is exact (Spec.Precise)."
 },
 "C98": {
  "status": "partial",
  "note": "C98_command characterises run_command exactly. C98_pieces, C98_checkout and C98_no_git connect it with C82; C98_which_git says which command is used. C98_keywords, C98_archive and C98_no_file are about the version file; C98_regex (the leftmost, longest match) and C98_any_file (the last line that counts) say what is read from any file. False as stated: output that is not UTF-8 raises an exception that leaves get_versions (C98_violated_decode); a comment with a quotation mark behind an assignment becomes part of the keyword (C98_violated_comment); a file without the names of references raises KeyError instead of leading to the next method (C98_violated_missing)."
 },
 "C99": {
  "status": "proved",
  "note": "For surveys as in C74 and C75 (no auxiliary samplers, no selections other than that of fluxes). C99_sphere computes the probability for a flux-limited survey of a sphere of constant density without measurement errors."
 },
 "C100": {
  "status": "proved",
  "note": "For attached samplers without secondaries, in surveys as in C80. C100_additive discharges the hypothesis for the samplers of the package with selections that look at most at the observed value (bounds, boxes, soft thresholds, coins, none)."
 },
 "C101": {
  "status": "partial",
  "note": "C101_kept, C101_succeeds, C101_raises, C101_again for a process on its own; C101_processes for any number of processes and all interleavings: nothing is lost, and every process that succeeds has the configuration it would have alone; C101_after: whenever they are stopped, the next import succeeds. That processes do not get in each other's way is false: get_path_of_log_dir tests for the directory and then makes it without exist_ok, so one of two processes can raise FileExistsError (C101_violated_race, for every file system with a configuration and without that directory). No links, no deletions by other programs, single writes are atomic."
 },
 "C102": {
  "status": "proved",
  "note": "C102_found for one survey, C102_superposition for proportional intensities, C102_numbers for any two surveys, C102_parts for surveys that differ in density and completeness, C102_degenerate. Under the hypotheses of C74. The two generators are independent: the surveys must not have the same seed (with the same seed they are the same survey, C21). That the mean number and the largest density on the grid scale with the density is assumed in Variant."
 },
 "C103": {
  "status": "proved",
  "note": "C103_completeness, C103_unbiased, C103_only and C103_flux_weights, under the hypotheses of C84 on the survey. Rests on C84_thinning."
 },
 "C104": {
  "status": "partial",
  "note": "C104_levels, C104_console (messages without escape characters), C104_reset (all messages, for the terminal of the specification, which knows only ESC [ number m), C104_console_unique, C104_user (times of 19 characters), C104_dev and C104_files (Spec.Loggable: times of 19 characters, no newlines, no bars in the names of loggers and functions). Newlines in messages are not escaped: such a record in usr.log cannot be told from two records (C104_violated_lines), so reading files back fails without that assumption."
 },
 "C105": {
  "status": "proved",
  "note": "C105_default identifies the default with the draw of the other theorems; C105_draw, C105_missing and C105_no_flag hold for any numbers, C105_logarithm, C105_units_log, C105_units_lin and C105_units_matter over the reals, without rounding, and with positive values where logarithms are taken."
 },
 "C106": {
  "status": "proved",
  "note": "Under the hypotheses of C84 on the survey. C106_histogram for bins in the space of everything random about an object; C106_distances, C106_fluxes and C106_quantities for the arrays of the population (selected and non_selected). C106_configured says the same of the distances in a survey whose synth is read from a configuration, with the means as integrals of the configured density over the range, under the hypotheses of C87_counts, and C106_configured_noisy with measurement errors, under those of C87_noisy; C106_configured_fluxes is the same for the fluxes without measurement errors. Rests on C84_thinning and C75_thinning."
 }
}
