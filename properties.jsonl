{"id": "C01", "title": "Reading a parameter returns the last accepted value or the default", "statement": "On a distribution, selector or auxiliary sampler, reading a declared parameter returns the value of the most recent accepted assignment to that parameter on that object; if there was none (or None was assigned) it returns the declared default; if there is no default either it raises AssertionError. Earlier reads never change what later reads return.", "quantifier": "for every class declaration (bounds, defaults, flags), every finite history of assignments, failed assignments and reads of any of its parameters, and every float comparison relation (NaN included)", "why_tests_cant": "Histories are unbounded and interleave failed and successful writes with reads that silently store defaults; tests exercise a handful of set/get pairs.", "anchors": ["popsynth/utils/meta.py:Parameter.__get__", "popsynth/utils/meta.py:Parameter.__set__", "popsynth/distribution.py:Distribution.params"]}
{"id": "C02", "title": "Assignments outside the declared bounds are rejected and change nothing", "statement": "Assigning to a parameter succeeds exactly when the parameter is free and the value compares >= vmin and <= vmax (for the bounds that are declared); otherwise it raises RuntimeError and every parameter of the object still reads as before. Hence every explicitly stored value always satisfies its bounds and NaN can never be stored in a parameter that has a bound.", "quantifier": "for every parameter declaration, every value including incomparable ones, and every history of operations", "why_tests_cant": "An invariant over all histories with arbitrary floating point values; tests try one value on each side of one bound.", "anchors": ["popsynth/utils/meta.py:Parameter.__set__"]}
{"id": "C03", "title": "Parameters and instances do not interfere", "statement": "Assigning or reading one parameter of one object never changes what any other parameter of that object, or any parameter of another object of the same class, reads as.", "quantifier": "for every pair of distinct parameter names or distinct objects, every value, every history", "why_tests_cant": "Aliasing between the class-level descriptor and per-instance storage only shows up for particular interleavings; tests use one object at a time.", "anchors": ["popsynth/utils/meta.py:Parameter", "popsynth/utils/meta.py:ParameterMeta.__new__", "popsynth/distribution.py:Distribution.__init__"]}
{"id": "C04", "title": "Only one normalization parameter per class", "statement": "Declaring a class with two or more parameters flagged is_normalization is refused with AssertionError ('Can only have 1 normalization').", "quantifier": "for every list of class attributes", "why_tests_cant": "The guard is a dead branch; only reasoning over all declarations shows it can never fire.", "anchors": ["popsynth/utils/meta.py:ParameterMeta.__new__"]}
{"id": "C05", "title": "Hard selectors select exactly the values inside their inclusive bounds", "statement": "After LowerBound / UpperBound / BoxSelection / HardFluxSelection draw, object i is selected iff value_i >= boundary / value_i <= boundary / vmin <= value_i <= vmax, boundaries included; the mask has one entry per value; NaN values are never selected; Box equals the conjunction of Lower and Upper.", "quantifier": "for every array of values (any length, NaN included) and every boundary", "why_tests_cant": "Boundary and incomparable values are measure-zero for random tests, and the claim is about every element of every array.", "anchors": ["popsynth/selection_probability/generic_selectors.py:LowerBound.draw", "popsynth/selection_probability/generic_selectors.py:UpperBound.draw", "popsynth/selection_probability/generic_selectors.py:BoxSelection.draw", "popsynth/selection_probability/flux_selectors.py:HardFluxSelection"]}
{"id": "C06", "title": "The quantity a selector acts on is determined by its flags", "statement": "A value selector acts on flux if use_flux, else on luminosity if use_luminosity, else on the observed value if use_obs_value, else on distance if use_distance; with no flag, or when the chosen quantity was never provided, drawing raises an error and leaves the previous mask in place.", "quantifier": "for all 16 flag combinations, all provided/missing quantity combinations, all values", "why_tests_cant": "Sixteen flag combinations times missing inputs times values; tests use one flag at a time.", "anchors": ["popsynth/selection_probability/generic_selectors.py:BoxSelection.draw", "popsynth/selection_probability/generic_selectors.py:LowerBound.draw", "popsynth/selection_probability/generic_selectors.py:UpperBound.draw", "popsynth/selection_probability/generic_selectors.py:SoftSelection.draw"]}
{"id": "C07", "title": "Adding selections is pointwise conjunction", "statement": "s1 + s2 selects object i iff both do; for any list of selections of equal length the combined mask is independent of order, grouping and repetition, UnitySelection is neutral, the result never selects an object some operand rejects, and operands are not modified.", "quantifier": "for every finite list of masks of any common length", "why_tests_cant": "Order/grouping independence quantifies over all lists and permutations.", "anchors": ["popsynth/selection_probability/selection_probability.py:SelectionProbability.__add__", "popsynth/selection_probability/selection_probability.py:DummySelection"]}
{"id": "C08", "title": "A selector is drawn at most once between resets", "statement": "Between two resets the first select() draws the mask and every later select(), whatever size or data it is given, keeps that mask; after reset() the next select() draws afresh; reading selection before any draw or after a reset raises RuntimeError.", "quantifier": "for every finite sequence of select / reset / set_* / read operations", "why_tests_cant": "A history property of a mutable object; tests only call select once.", "anchors": ["popsynth/selection_probability/selection_probability.py:SelectionProbability.select", "popsynth/selection_probability/selection_probability.py:SelectionProbability.reset", "popsynth/selection_probability/selection_probability.py:SelectionProbability.selection"]}
{"id": "C09", "title": "Selection counts and index lists are exact complements", "statement": "selection_index and non_selection_index are strictly increasing, disjoint, together list every index 0..n-1 exactly once, i is in selection_index iff the mask is true at i, n_selected and n_non_selected are their lengths and sum to n_objects.", "quantifier": "for every mask of every length", "why_tests_cant": "Universal over masks of unbounded length.", "anchors": ["popsynth/selection_probability/selection_probability.py:SelectionProbability.n_selected", "popsynth/selection_probability/selection_probability.py:SelectionProbability.selection_index", "popsynth/selection_probability/selection_probability.py:SelectionProbability.non_selection_index"]}
{"id": "C10", "title": "Spatial selections keep exactly the stated region", "statement": "DistanceSelection keeps exactly the objects with min_distance <= d <= max_distance; GalacticPlaneSelection keeps exactly the objects whose galactic latitude b satisfies |b| >= b_limit, for every non-negative limit.", "quantifier": "for every set of positions and every limit", "why_tests_cant": "Every object and every boundary value; random skies never hit the boundary.", "anchors": ["popsynth/selection_probability/spatial_selection.py:DistanceSelection.draw", "popsynth/selection_probability/spatial_selection.py:GalacticPlaneSelection.draw"]}
{"id": "C11", "title": "Probabilistic selections are monotone, bounded and independent of the progress bar", "statement": "SoftSelection's detection probability lies strictly between 0 and 1, equals 1/2 at the boundary and is non-decreasing in the selected value (for strength >= 0, positive values); BernoulliSelection with the same random state gives the same mask with progress bars on and off, mask length = size, probability 0 selects none and 1 selects all.", "quantifier": "for all values, boundaries, strengths, sizes and random streams", "why_tests_cant": "Real-valued monotonicity and equality over all random streams cannot be settled by sampling.", "anchors": ["popsynth/selection_probability/generic_selectors.py:SoftSelection.draw", "popsynth/selection_probability/generic_selectors.py:BernoulliSelection.draw", "popsynth/selection_probability/flux_selectors.py:SoftFluxSelection"]}
{"id": "C12", "title": "Drawing a sampler samples its whole dependency graph, each sampler exactly once, dependencies first", "statement": "For samplers wired into an acyclic dependency graph (shared dependencies allowed), draw(n) on one sampler calls the true_sampler of every not-yet-sampled sampler reachable through set_secondary_sampler exactly once, never calls one before all of its dependencies are sampled, leaves unreachable samplers untouched, and afterwards every reachable sampler holds n true and n observed values.", "quantifier": "for every finite acyclic sampler graph, every sharing pattern, every size, every sampler behaviour and random stream", "why_tests_cant": "Quantifies over all dependency graphs and all user-written samplers; tests have one or two shapes.", "anchors": ["popsynth/auxiliary_sampler.py:AuxiliarySampler.draw", "popsynth/auxiliary_sampler.py:AuxiliarySampler.set_secondary_sampler"]}
{"id": "C13", "title": "An already drawn sampler is not redrawn until reset", "statement": "draw() on a sampler that was already drawn leaves its values, observed values, selection and the random state unchanged whatever size is requested; two parents sharing a secondary therefore see the identical values.", "quantifier": "for every sampler state, size and random state", "why_tests_cant": "History property over arbitrary sharing.", "anchors": ["popsynth/auxiliary_sampler.py:AuxiliarySampler.draw"]}
{"id": "C14", "title": "Observed values of a sampler", "statement": "After a successful draw an unobserved sampler's observed values equal its true values; an observed sampler whose class does not assign observed values (the base-class observation_sampler, or BrokenPowerLawAuxSampler with its default observed=True) can never be drawn successfully.", "quantifier": "for every sampler, size and random stream", "why_tests_cant": "Negative claims ('never succeeds') and equality for all streams are not testable.", "anchors": ["popsynth/auxiliary_sampler.py:AuxiliarySampler.draw", "popsynth/auxiliary_sampler.py:AuxiliarySampler.observation_sampler", "popsynth/aux_samplers/plaw_aux_sampler.py:BrokenPowerLawAuxSampler.observation_sampler"]}
{"id": "C15", "title": "reset() clears the whole dependency graph", "statement": "After reset() on a sampler, no sampler reachable from it is marked as sampled, every one that was sampled has dropped its true and observed values, and a following draw(n) resamples every one of them; unreachable samplers are untouched.", "quantifier": "for every finite acyclic sampler graph and every prior state", "why_tests_cant": "Graph-shaped recursion; tests reset single samplers.", "anchors": ["popsynth/auxiliary_sampler.py:AuxiliarySampler.reset", "popsynth/selection_probability/selection_probability.py:SelectionProbability.reset"]}
{"id": "C16", "title": "Every attached sampler is reported exactly once", "statement": "After a survey draw, the collected quantities contain one entry for every sampler reachable from the attached ones, holding that sampler's true values, observed values and selection; no entry is lost or duplicated.", "quantifier": "for every acyclic sampler graph whose samplers have pairwise distinct non-empty names", "why_tests_cant": "All graph shapes and merge orders of the collected dictionaries.", "anchors": ["popsynth/auxiliary_sampler.py:AuxiliarySampler.get_secondary_properties", "popsynth/auxiliary_sampler.py:SecondaryStorage.__add__", "popsynth/population_synth.py:PopulationSynth.draw_survey"]}
{"id": "C17", "title": "Samplers that declare a need for luminosity or position receive it", "statement": "During draw_survey every sampler reachable from an attached sampler gets this survey's positions before its true_sampler runs, and every one that declares uses_luminosity gets this survey's luminosities.", "quantifier": "for every acyclic sampler graph and every survey", "why_tests_cant": "Depends on depth in the dependency graph; tests only use depth one.", "anchors": ["popsynth/auxiliary_sampler.py:AuxiliarySampler.set_spatial_values", "popsynth/auxiliary_sampler.py:AuxiliarySampler.set_luminosity", "popsynth/population_synth.py:PopulationSynth.draw_survey"]}
{"id": "C18", "title": "All arrays of a drawn survey have the same length", "statement": "If draw_survey returns, distances, theta, phi, luminosities, fluxes, observed fluxes, selection and every auxiliary quantity all have length n, with n the requested n_samples or the Poisson draw.", "quantifier": "for every configuration, every random stream, every user-written sampler and distribution", "why_tests_cant": "Needs to hold for arbitrary user-supplied samplers and streams.", "anchors": ["popsynth/population_synth.py:PopulationSynth.draw_survey", "popsynth/population.py:Population.__init__"]}
{"id": "C19", "title": "An object is selected iff every configured selection selects it", "statement": "In the population returned by draw_survey, object i is selected iff the flux selection, the spatial selection (if any) and the selection of every attached or dependent auxiliary sampler select it.", "quantifier": "for every configuration with freshly reset, unshared selectors, every random stream", "why_tests_cant": "Conjunction over arbitrarily many selectors and all objects.", "anchors": ["popsynth/population_synth.py:PopulationSynth.draw_survey", "popsynth/selection_probability/selection_probability.py:SelectionProbability.__add__"]}
{"id": "C20", "title": "Known and unknown distances partition the detections", "statement": "In a drawn population the known and unknown distance indices are disjoint, increasing and together list 0..n_detections-1; known_distances[k] is the distance of the detected object number known_distance_idx[k]; a known index is one the distance selection selected.", "quantifier": "for every survey configuration and random stream", "why_tests_cant": "All masks, all nesting of two boolean selections.", "anchors": ["popsynth/population_synth.py:PopulationSynth.draw_survey", "popsynth/population.py:Population.__init__"]}
{"id": "C21", "title": "Surveys are reproducible from the seed", "statement": "Two draw_survey calls with the same seed, configuration and arguments, both from freshly reset samplers and selectors, return identical populations whatever random numbers were consumed before in the process.", "quantifier": "for every configuration, every earlier random-number history of the process", "why_tests_cant": "Independence from all ambient random states cannot be sampled.", "anchors": ["popsynth/population_synth.py:PopulationSynth.draw_survey", "popsynth/aux_samplers/plaw_aux_sampler.py:_sample_power_law"]}
{"id": "C22", "title": "Flux measurement noise is applied exactly when requested", "statement": "If flux_sigma is given and a flux selection is set, the observed fluxes are the latent fluxes scattered in log10 (or ln) space with that sigma and flux_sigma is reported; if flux_sigma is None observed equals latent fluxes. Observed fluxes are positive whenever latent fluxes are.", "quantifier": "for every survey, sigma and random stream", "why_tests_cant": "Interaction of two options over all inputs.", "anchors": ["popsynth/population_synth.py:PopulationSynth.draw_survey", "popsynth/population_synth.py:PopulationSynth.draw_log10_fobs", "popsynth/population_synth.py:PopulationSynth.draw_log_fobs"]}
{"id": "C23", "title": "The reported probability is the product of all draw probabilities", "statement": "population.probability_i is the product of the spatial probability, the luminosity probability (when a luminosity distribution is used) and the probability reported by every auxiliary sampler for object i.", "quantifier": "for every configuration and every object", "why_tests_cant": "A product over arbitrary many samplers for every configuration.", "anchors": ["popsynth/population_synth.py:PopulationSynth.draw_survey", "popsynth/auxiliary_sampler.py:AuxiliarySampler.probability"]}
{"id": "C24", "title": "draw_survey needs a luminosity source", "statement": "draw_survey raises RuntimeError if and only if there is neither a luminosity distribution nor a derived luminosity sampler among otherwise well-behaved configurations, and with a derived luminosity sampler the luminosity distribution is never drawn.", "quantifier": "for every configuration", "why_tests_cant": "Negative claim over configurations.", "anchors": ["popsynth/population_synth.py:PopulationSynth.draw_survey"]}
{"id": "C25", "title": "A survey can be drawn again", "statement": "Calling draw_survey again on the same PopulationSynth draws a new survey whose selections are consistent with the new data; after clean(reset=True) the object behaves like a newly constructed one with the same distributions.", "quantifier": "for every configuration and every sequence of draws and cleans", "why_tests_cant": "History property of a long-lived object with cached masks.", "anchors": ["popsynth/population_synth.py:PopulationSynth.draw_survey", "popsynth/population_synth.py:PopulationSynth.clean", "popsynth/selection_probability/selection_probability.py:SelectionProbability.select"]}
{"id": "C26", "title": "Surveys without known distances are still returned", "statement": "If objects are detected but the distance selection knows none of their distances, draw_survey still returns the population (with empty known distances).", "quantifier": "for every configuration whose distance selection selects nothing", "why_tests_cant": "Rare random event; needs reasoning about the path.", "anchors": ["popsynth/population_synth.py:PopulationSynth.draw_survey"]}
{"id": "C27", "title": "Drawing distances leaves the distribution's parameters as the user set them", "statement": "draw_distance (normalized or not) returns with every parameter reading the same as before, for every quadrature rule and random stream; in particular the temporary normalization to one is undone.", "quantifier": "for every distribution of the modelled form, every parameter setting, adaptive quadrature and random stream", "why_tests_cant": "Depends on the order in which descriptors are first touched, and on adaptive quadrature evaluation order.", "anchors": ["popsynth/distribution.py:SpatialDistribution.draw_distance", "popsynth/distribution.py:Distribution.normalization_parameter"]}
{"id": "C28", "title": "With normalize=True the expected number of objects is the normalization parameter", "statement": "For the built-in spatial distributions that flag a normalization parameter, draw_survey(normalize=True) uses exactly that parameter's value as Poisson mean, whatever the other parameters are, and the distance density it samples from integrates to one over [0, r_max].", "quantifier": "for all real parameter values with a non-zero integral", "why_tests_cant": "An identity between integrals over real parameters.", "anchors": ["popsynth/population_synth.py:PopulationSynth.draw_survey", "popsynth/distribution.py:SpatialDistribution.draw_distance"]}
{"id": "C29", "title": "Attaching samplers keeps a well-formed configuration", "statement": "add_observed_quantity either attaches the sampler or raises RuntimeError and changes nothing: secondary samplers, duplicate names and foreign objects are refused; attached names are pairwise distinct and keyed by the sampler's own name; a derived luminosity sampler replaces the previous one.", "quantifier": "for every finite sequence of attach operations", "why_tests_cant": "Invariant over histories.", "anchors": ["popsynth/population_synth.py:PopulationSynth.add_observed_quantity", "popsynth/population_synth.py:PopulationSynth.add_auxiliary_sampler"]}
{"id": "C30", "title": "Population counts are consistent", "statement": "For every Population that can be constructed, n_objects = n_detections + n_non_detections, the selected and non-selected parts of every quantity have these lengths, and the numbers of known and unknown distances add up to n_detections; construction fails otherwise.", "quantifier": "for every constructor argument combination", "why_tests_cant": "Universal over arrays of all lengths; a data invariant.", "anchors": ["popsynth/population.py:Population.__init__", "popsynth/simulated_variable.py:SimulatedVariable.__new__"]}
{"id": "C31", "title": "Stan data indices are one-based and consistent", "statement": "In to_stan_data, N equals the length of every per-detection array, Nz + Nnz = N, z_idx and z_nidx are one-based, within 1..N, disjoint and exhaustive, and known_z_obs[k] = z_obs[z_idx[k]].", "quantifier": "for every population produced by a survey draw", "why_tests_cant": "Off-by-one for every mask; Stan fails silently.", "anchors": ["popsynth/population.py:Population.to_stan_data"]}
{"id": "C32", "title": "Sub-populations keep the objects and their known distances", "statement": "to_sub_population keeps exactly the chosen (non-)detections in order with their values, marks all of them detected, and an object's distance is known in the sub-population iff it was known before; the sub-population can be written to file.", "quantifier": "for every population and both modes", "why_tests_cant": "Universal over populations, includes persistence.", "anchors": ["popsynth/population.py:Population.to_sub_population"]}
{"id": "C33", "title": "Auxiliary quantities are protected attributes", "statement": "After construction every auxiliary quantity is available as an attribute under its own name and cannot be reassigned; quantities cannot displace the population's own attributes.", "quantifier": "for every set of names and every later assignment history", "why_tests_cant": "Name-collision space is unbounded.", "anchors": ["popsynth/population.py:Population.__init__", "popsynth/population.py:Population.__setattr__"]}
{"id": "C34", "title": "selected / non_selected split a simulated variable without loss", "statement": "x.selected and x.non_selected carry, for observed and latent values alike and in the original order, exactly the entries where the selection is true respectively false; their lengths add up to len(x) and interleaving them by the mask restores x; indexing with slices or masks keeps observed, latent and selection aligned.", "quantifier": "for every array, mask and index", "why_tests_cant": "All lengths and masks.", "anchors": ["popsynth/simulated_variable.py:SimulatedVariable.selected", "popsynth/simulated_variable.py:SimulatedVariable.non_selected", "popsynth/simulated_variable.py:SimulatedVariable.__getitem__"]}
{"id": "C35", "title": "Arithmetic on simulated variables keeps observed and latent values in step", "statement": "For any numpy element-wise function, f(x) has observed values f(x.observed), latent values f(x.latent) and x's selection; element-wise functions commute with .selected and .non_selected; inconsistent lengths are refused.", "quantifier": "for every element-wise function of any arity and output count, all operands", "why_tests_cant": "Quantifies over all functions.", "anchors": ["popsynth/simulated_variable.py:SimulatedVariable.__array_ufunc__"]}
{"id": "C36", "title": "In-place arithmetic keeps observed and latent values in step", "statement": "x += y (and every other in-place operator) has the same effect on observed values, latent values and selection as x = x + y.", "quantifier": "for all arrays and operators, aliased or not", "why_tests_cant": "Depends on buffer aliasing; universally quantified.", "anchors": ["popsynth/simulated_variable.py:SimulatedVariable.__array_ufunc__"]}
{"id": "C37", "title": "Taking the selection twice changes nothing", "statement": "x.selected.selected equals x.selected and x.selected.non_selected is empty.", "quantifier": "for every simulated variable and dtype", "why_tests_cant": "Depends on dtype of the produced mask; universal over arrays.", "anchors": ["popsynth/simulated_variable.py:SimulatedVariable.selected"]}
{"id": "C38", "title": "Nested dictionaries survive HDF5", "statement": "Loading what recursively_save_dict_contents_to_group wrote gives back an equal dictionary (lists of strings come back as dictionaries with these strings as keys), for arbitrarily nested dictionaries with string keys; unsupported values raise ValueError.", "quantifier": "for every nested dictionary with non-empty, slash-free, pairwise distinct keys per level", "why_tests_cant": "Unbounded nesting; needs structural induction.", "anchors": ["popsynth/utils/hdf5_utils.py:recursively_save_dict_contents_to_group", "popsynth/utils/hdf5_utils.py:recursively_load_dict_contents_from_group"]}
{"id": "C39", "title": "The dependency graph survives HDF5", "statement": "clean_graph_dict(fill_graph_dict(g)) = g for every graph dictionary, and a population reloaded from file has the same directed dependency graph as the one written.", "quantifier": "for every directed graph", "why_tests_cant": "Structural induction; direction loss is not checked by tests.", "anchors": ["popsynth/utils/hdf5_utils.py:fill_graph_dict", "popsynth/utils/hdf5_utils.py:clean_graph_dict", "popsynth/population.py:Population._loadfrom"]}
{"id": "C40", "title": "Populations survive writing and reading", "statement": "Population.from_file(writeto(p)) (and the group variants) restores every array, count, parameter, model space, truth entry and option of p.", "quantifier": "for every population", "why_tests_cant": "Every field of every population; misspelt dataset names go unnoticed in tests.", "anchors": ["popsynth/population.py:Population._writeto", "popsynth/population.py:Population._loadfrom"]}
{"id": "C41", "title": "PopulationSynth survives to_dict / from_dict", "statement": "from_dict(ps.to_dict()) is a synth with the same seed, distributions, parameter values, selections, attached samplers, dependency graph and observed flags as ps, so that drawing from both gives the same survey.", "quantifier": "for every configuration built from registered classes", "why_tests_cant": "All configurations, dependency graphs and constructor signatures.", "anchors": ["popsynth/population_synth.py:PopulationSynth.to_dict", "popsynth/population_synth.py:PopulationSynth.from_dict", "popsynth/auxiliary_sampler.py:AuxiliarySampler.get_secondary_objects"]}
{"id": "C42", "title": "from_dict does not consume its input", "statement": "PopulationSynth.from_dict(d) leaves d unchanged, so it can be called again with the same dictionary.", "quantifier": "for every configuration dictionary", "why_tests_cant": "Universal over dictionaries; mutation of nested values.", "anchors": ["popsynth/population_synth.py:PopulationSynth.from_dict"]}
{"id": "C43", "title": "Key order does not matter in configuration files", "statement": "A configuration written with write_to (keys sorted by YAML) or stored in HDF5 (keys sorted) is read back as the same configuration as the dictionary it came from.", "quantifier": "for every configuration dictionary and every key order", "why_tests_cant": "Permutation-quantified.", "anchors": ["popsynth/population_synth.py:PopulationSynth.write_to", "popsynth/population_synth.py:PopulationSynth.from_file", "popsynth/population_synth.py:PopulationSynth.from_dict"]}
{"id": "C44", "title": "The dependency graph shows the current configuration", "statement": "synth.graph has a node for every attached sampler and dependency, an edge from each dependency to the sampler using it, from each observed sampler to its observed node, and from the position/luminosity to the observed flux; reading it again gives the same graph; samplers removed by clean no longer appear.", "quantifier": "for every configuration history", "why_tests_cant": "Histories and graph shapes.", "anchors": ["popsynth/population_synth.py:PopulationSynth._build_graph", "popsynth/population_synth.py:PopulationSynth.graph", "popsynth/auxiliary_sampler.py:AuxiliarySampler.get_secondary_properties"]}
{"id": "C45", "title": "Rejection sampling returns only accepted distances", "statement": "Whenever rejection sampling returns, it returns exactly size distances, each within [0, r_max] and each with positive density; the probability of accepting a distance r is min(f(r), ymax)/ymax, which is proportional to the density iff ymax bounds it.", "quantifier": "for every density, size, bound and random stream", "why_tests_cant": "All random streams; distributional correctness of acceptance is a measure statement.", "anchors": ["popsynth/utils/rejection_sample.py:rejection_sample", "popsynth/distribution.py:SpatialDistribution.draw_distance"]}
{"id": "C46", "title": "Progress bars do not change the drawn distances", "statement": "With the same random state, draw_distance draws the same distances whether popsynth_config.show_progress is on or off.", "quantifier": "for every distribution, normalization option, random state", "why_tests_cant": "Two code paths compared for all streams.", "anchors": ["popsynth/distribution.py:SpatialDistribution.draw_distance", "popsynth/utils/rejection_sample.py:rejection_sample"]}
{"id": "C47", "title": "Broken power law is a probability density", "statement": "For Lmin < Lbreak < Lmax (positive) and exponents other than -1, the piece weights are positive and sum to one, the density is non-negative, continuous at the break, zero outside and integrates to one.", "quantifier": "for all real parameters in that range", "why_tests_cant": "Real analysis.", "anchors": ["popsynth/distributions/bpl_distribution.py:integrate_pl", "popsynth/distributions/bpl_distribution.py:bpl", "popsynth/distributions/bpl_distribution.py:BPLDistribution.phi"]}
{"id": "C48", "title": "Broken power law sampling follows its density", "statement": "sample_bpl maps uniform numbers into [Lmin, Lbreak] or [Lbreak, Lmax] so that each piece's cumulative distribution is inverted exactly and the pieces are chosen with the weights of the density.", "quantifier": "for all real parameters and all uniform numbers", "why_tests_cant": "Inverse-CDF identity over reals.", "anchors": ["popsynth/distributions/bpl_distribution.py:sample_bpl"]}
{"id": "C49", "title": "Power law sampling follows its density", "statement": "The power-law sampler maps u in [0,1] monotonically onto [xmin,xmax], inverting the cumulative distribution of x^alpha on that interval exactly, including alpha = -1.", "quantifier": "for all real alpha, 0 < xmin < xmax, u", "why_tests_cant": "Real analysis with a special branch.", "anchors": ["popsynth/aux_samplers/plaw_aux_sampler.py:_sample_power_law"]}
{"id": "C50", "title": "Luminosity functions are normalized densities", "statement": "phi of the Pareto, Schechter, log-normal, log10-normal, log-uniform and broken-power-law distributions is non-negative and integrates to one over its support for all admissible parameters, and draws lie in the support.", "quantifier": "for all real parameters", "why_tests_cant": "Improper integrals over all parameters.", "anchors": ["popsynth/distributions/pareto_distribution.py:ParetoDistribution.phi", "popsynth/distributions/schechter_distribution.py:SchechterDistribution.phi", "popsynth/distributions/log_normal_distribution.py:LogNormalDistribution.phi", "popsynth/distributions/log10_normal_distribution.py:Log10NormalDistribution.phi", "popsynth/distributions/uniform_distribution.py:LogUniLuminiosityDistribution.phi"]}
{"id": "C51", "title": "Truncated samplers stay inside their limits", "statement": "TruncatedNormal, TruncatedLogNormal and TruncatedLog10Normal samplers only produce true values in [lower, upper], and their truncation interval is the whole of [lower, upper].", "quantifier": "for all parameters and all draws of the standard truncated normal", "why_tests_cant": "All real parameters and draws.", "anchors": ["popsynth/aux_samplers/trunc_normal_aux_sampler.py:TruncatedNormalAuxSampler.true_sampler", "popsynth/aux_samplers/trunc_lognormal_aux_sampler.py:TruncatedLogNormalAuxSampler.true_sampler", "popsynth/aux_samplers/trunc_lognormal_aux_sampler.py:TruncatedLog10NormalAuxSampler.true_sampler"]}
{"id": "C52", "title": "Sky positions and angles are in range and isotropic", "statement": "Drawn positions have theta in [0,pi], phi in [0,2pi), hence dec in [-90,90] and ra in [0,360); cos(theta) is uniform; the cartesian conversion preserves the radius; viewing angles lie in [0, max_angle] with density sin/(1-cos max) integrating to one.", "quantifier": "for all uniform numbers and radii", "why_tests_cant": "Trigonometric identities over the reals.", "anchors": ["popsynth/utils/spherical_geometry.py:sample_theta_phi", "popsynth/utils/spherical_geometry.py:xyz", "popsynth/distribution.py:SpatialContainer.dec", "popsynth/aux_samplers/viewing_angle_sampler.py:ViewingAngleSampler", "popsynth/aux_samplers/sky_sampler.py"]}
{"id": "C53", "title": "Cosmological distances behave", "statement": "For a flat cosmology with 0 < Om and positive dark energy, luminosity_distance(0)=0, it is strictly increasing in z, positive for z>0, comoving distance = luminosity distance/(1+z), and the differential comoving volume is non-negative.", "quantifier": "for all redshifts and cosmological parameters in range", "why_tests_cant": "Monotonicity of a rational approximation over all reals.", "anchors": ["popsynth/utils/cosmology.py:Cosmology.luminosity_distance", "popsynth/utils/cosmology.py:Cosmology.differential_comoving_volume"]}
{"id": "C54", "title": "Flux falls with distance and scales with luminosity", "statement": "The luminosity-to-flux transforms are linear in luminosity, positive for positive luminosity, and strictly decreasing in distance (redshift), so a flux limit corresponds to a distance horizon for each luminosity.", "quantifier": "for all luminosities and distances", "why_tests_cant": "Real monotonicity.", "anchors": ["popsynth/distributions/spherical_distribution.py:SphericalDistribution.transform", "popsynth/distributions/cosmological_distribution.py:CosmologicalDistribution.transform"]}
{"id": "C55", "title": "Ready-made populations pass every argument to the right parameter", "statement": "Each class in popsynth.populations builds a synth whose spatial and luminosity distributions have exactly the parameter values given to the constructor, or raises RuntimeError if one is out of bounds.", "quantifier": "for every class and all argument values", "why_tests_cant": "Swapped arguments of equal type; all values.", "anchors": ["popsynth/populations"]}
{"id": "C56", "title": "Logging modes can be undone", "statement": "activate_logs() restores the levels in force before the last mode switch; silence_console_log restores the console level on every exit including exceptions; silencing warnings and activating them again is neutral.", "quantifier": "for every finite sequence of logging calls", "why_tests_cant": "Histories of a global state machine.", "anchors": ["popsynth/utils/logging.py:LoggingState", "popsynth/utils/logging.py:silence_console_log", "popsynth/utils/logging.py:quiet_mode", "popsynth/utils/logging.py:activate_logs"]}
{"id": "C57", "title": "Model spaces are proper log grids", "statement": "add_model_space(name, start, stop) produces 500 strictly increasing positive values from start to stop that the population accepts and exports to Stan under that name.", "quantifier": "for all 0 < start < stop", "why_tests_cant": "Real-valued and interplay with the constructor assertions.", "anchors": ["popsynth/population_synth.py:PopulationSynth.add_model_space", "popsynth/population.py:Population.__init__", "popsynth/population.py:Population.to_stan_data"]}
{"id": "C58", "title": "The recorded truth contains every parameter value used", "statement": "population.truth lists, for the spatial distribution, the luminosity distribution and every sampler, exactly the parameter values the simulation used.", "quantifier": "for every configuration and parameter-setting history", "why_tests_cant": "Depends on which parameters were touched before the snapshot.", "anchors": ["popsynth/population_synth.py:PopulationSynth.draw_survey", "popsynth/distribution.py:Distribution.truth", "popsynth/auxiliary_sampler.py:AuxiliarySampler.truth"]}
{"id": "C59", "title": "Returned populations are independent of the synth", "statement": "Later changes to the synth (its parameters, graph or model spaces) do not change a population it returned earlier.", "quantifier": "for every later sequence of operations", "why_tests_cant": "Aliasing over histories.", "anchors": ["popsynth/population_synth.py:PopulationSynth.draw_survey", "popsynth/population.py:Population.__init__"]}
{"id": "C60", "title": "Survey quantities come from their configured sources", "statement": "Every returned survey has one distance, sky position, latent luminosity and latent flux per counted object: positions are those the spatial distribution drew, luminosities those of the luminosity distribution or of the derived-luminosity sampler, latent flux the distribution's transform of exactly that luminosity and that distance, and the distance mask the one the distance selection drew. For a standard candle without flux noise, an object is detected exactly inside a distance horizon.", "quantifier": "for every synth, distribution, sampler graph, selection and random outcome", "why_tests_cant": "Tests draw a handful of surveys and look at sizes; swapped arguments or a stale array would give plausible values.", "anchors": ["popsynth/population_synth.py:PopulationSynth.draw_survey"]}
{"id": "C61", "title": "The last selection set in each role is used, and clean() discards only attachments", "statement": "After any sequence of set_flux_selection, set_distance_selection, add_spatial_selector, add_auxiliary_sampler and add_model_space calls, the synth holds the last accepted selection in each single role and every accepted attachment in order; a call with the wrong kind of object is refused and changes nothing; clean() without reset gives the synth the configuration of a new one except that model spaces stay, and touches no sampler or selector object the synth held, no random state and nothing drawn.", "quantifier": "for every sequence of calls", "why_tests_cant": "Tests configure a synth once in one order.", "anchors": ["popsynth/population_synth.py:PopulationSynth.set_flux_selection", "popsynth/population_synth.py:PopulationSynth.set_distance_selection", "popsynth/population_synth.py:PopulationSynth.add_spatial_selector", "popsynth/population_synth.py:PopulationSynth.clean"]}
{"id": "C62", "title": "The built-in auxiliary samplers draw what their parameters say", "statement": "For every built-in auxiliary sampler class and all parameter values in force (set ones or defaults) that the class can use, true_sampler(n) returns n values, each made from its own random number by the class's rule; the reported truth then lists every declared parameter with the value used; an observed property has true value plus sigma times its own standard normal number per object (exactly the true value for sigma = 0), a latent one has observed = true; a declared parameter without default or value makes the draw fail instead of giving values; so draws of any graph of such samplers return.", "quantifier": "for all thirteen classes, parameter values, sizes and random outcomes", "why_tests_cant": "Tests draw with a few fixed parameter values and check only that something of the right length comes out.", "anchors": ["popsynth/aux_samplers/normal_aux_sampler.py", "popsynth/aux_samplers/lognormal_aux_sampler.py", "popsynth/aux_samplers/trunc_normal_aux_sampler.py", "popsynth/aux_samplers/trunc_lognormal_aux_sampler.py", "popsynth/aux_samplers/sky_sampler.py", "popsynth/aux_samplers/plaw_aux_sampler.py", "popsynth/aux_samplers/delta_aux_sampler.py", "popsynth/aux_samplers/viewing_angle_sampler.py"]}
{"id": "C63", "title": "from_dict builds exactly what the dictionary describes", "statement": "A configuration dictionary describes a synthesizer when its seed, sections and entries name registered classes and admissible numbers in the documented places: class first, parameters below it, is_rate for cosmological classes, None or no section for no selection, one entry per sampler with type, observed, init variables, parameters, selection and secondaries (up to the first None). from_dict succeeds exactly when the dictionary describes a synthesizer, and returns it: every declared parameter that is given has the given value and no other parameter is set, secondaries are attached under their names and in their order and know their parents, the samplers that no entry lists are attached in the order of the entries, and the last derived luminosity sampler among them is used. A dictionary describes at most one synthesizer.", "quantifier": "for all registries of classes, conversions of text to numbers and dictionaries without repeated keys", "why_tests_cant": "Tests load three or four fixed files; they cannot cover every combination of missing, empty and nested sections, constructor signatures and lists of secondaries, nor show that nothing else is set.", "anchors": ["popsynth/population_synth.py:PopulationSynth.from_dict", "popsynth/population_synth.py:PopulationSynth.from_file", "popsynth/utils/meta.py", "popsynth/utils/registry.py"]}
{"id": "C64", "title": "What can be configured with the classes of the package", "statement": "After importing popsynth the classes that a configuration can name are exactly the documented concrete distributions, selections and samplers; each can be made with the arguments from_dict has, its parameters, their limits and their defaults are the documented ones, and every default is an admissible value. A synthesizer put together from objects of these classes, used in any way, is described completely by to_dict and rebuilt by from_dict, and the same holds for whatever from_dict reads. What to_dict writes never has a key twice.", "quantifier": "for all registered classes, histories of assignments and readings of parameters, sampler trees and dictionaries", "why_tests_cant": "Tests load a few configurations of a few classes; they cannot cover all combinations of classes, parameter histories and secondaries, and never compare every class statement with what from_dict does with it.", "anchors": ["popsynth/utils/meta.py:DistributionMeta", "popsynth/utils/registry.py", "popsynth/__init__.py", "popsynth/distributions", "popsynth/selection_probability", "popsynth/aux_samplers", "popsynth/population_synth.py:PopulationSynth.from_dict", "popsynth/population_synth.py:PopulationSynth.to_dict"]}
{"id": "C65", "title": "What a failed draw leaves behind", "statement": "Whenever a draw of a sampler or of a survey stops with an exception, at whatever point, the configuration is as before: names, dependencies, flags and selections of all samplers are unchanged, samplers that had been drawn keep their values, and a sampler is only newly marked as drawn if it belongs to the survey and holds as many true and observed values as objects were requested. So the user can correct the cause and draw again: a draw that then returns has values for every dependency; after a reset it draws every sampler of the survey exactly once, and nothing of the failed attempt is reported.", "quantifier": "for all configurations, sampler and selection code, random states, failures at any point and histories of failed and successful draws", "why_tests_cant": "Tests check that certain calls raise, never the state of the objects afterwards, let alone for failures at every point of every configuration.", "anchors": ["popsynth/auxiliary_sampler.py:AuxiliarySampler.draw", "popsynth/auxiliary_sampler.py:AuxiliarySampler.reset", "popsynth/population_synth.py:PopulationSynth.draw_survey", "popsynth/population_synth.py:PopulationSynth.clean"]}
{"id": "C66", "title": "The expected number of objects is the integral of the documented density", "statement": "When no number of objects is given and the population is not normalized, the mean of the Poisson number that draw_survey draws is the documented number density integrated over the surveyed volume: over the ball of radius r_max for the spherical distributions (density times 4/3 pi r_max^3 if it is constant), over the length r_max in flat land, and over the comoving volume of the whole sky up to redshift r_max for cosmological ones, with the rate of transient events reduced by 1 + z. Where a parameter is documented as the local density or as a limit of the redshift, it is.", "quantifier": "for all values of the parameters, maximal distances, cosmologies with matter, hubble constant and dark energy, and quadratures exact for the density", "why_tests_cant": "Tests draw a few surveys and at most check that the number is positive; an integral over all parameters and distances compared with the volume of space is a theorem of calculus.", "anchors": ["popsynth/population_synth.py:PopulationSynth.draw_survey", "popsynth/distributions/spherical_distribution.py", "popsynth/distributions/cosmological_distribution.py", "popsynth/distributions/flatland_distribution.py", "popsynth/distributions/spiral_galaxy_distribution.py", "popsynth/distributions/uniform_distribution.py", "popsynth/utils/cosmology.py:Cosmology.differential_comoving_volume"]}
{"id": "C67", "title": "Plots of a population show its objects, each once and with its own values", "statement": "The plots of a population show exactly its objects: true fluxes for all of them, observed fluxes for the detected ones with an arrow from the true to the observed flux, luminosities of detected and undetected objects as two groups, histograms of all and of detected distances, and in space one sphere per object at its position, coloured by flux on the requested scale, in a figure that is returned. The numbers displayed are those of the objects and detections.", "quantifier": "for all populations that can be built, axes, transforms of distances and positive fluxes", "why_tests_cant": "Tests call the plotting functions and look at nothing; what is drawn for arbitrary populations, including those without or with only detections, is never compared with the data.", "anchors": ["popsynth/population.py:Population.display_true_fluxes", "popsynth/population.py:Population.display_obs_fluxes", "popsynth/population.py:Population.display_fluxes", "popsynth/population.py:Population.display_luminosities", "popsynth/population.py:Population.display_distances", "popsynth/population.py:Population.display_flux_sphere", "popsynth/population.py:Population._display_sphere", "popsynth/population.py:Population.display", "popsynth/population.py:Population.__repr__", "popsynth/utils/array_to_cmap.py:array_to_cmap"]}
{"id": "C68", "title": "A survey depends on how the synth is set up, not on which objects it is made of", "statement": "Two synths that are configured the same (same seed, classes, parameter values, selections, attached samplers and secondaries) draw the same survey from the same random state, or raise the same exception, wherever their samplers and selectors are in memory; in particular a synth rebuilt by from_dict from what to_dict wrote draws the same survey as the original and writes the same dictionary again.", "quantifier": "for all configurations, classes of samplers, selectors and distributions, primitives, random states and arguments of draw_survey", "why_tests_cant": "Tests compare a few surveys before and after writing; independence of object identity is a statement about all pairs of heaps, including selectors and samplers shared between parents.", "anchors": ["popsynth/population_synth.py:PopulationSynth.draw_survey", "popsynth/population_synth.py:PopulationSynth.to_dict", "popsynth/population_synth.py:PopulationSynth.from_dict", "popsynth/auxiliary_sampler.py:AuxiliarySampler.draw", "popsynth/auxiliary_sampler.py:AuxiliarySampler.get_secondary_objects", "popsynth/selection_probability/selection_probability.py:SelectionProbability.select"]}
{"id": "C69", "title": "Displaying or printing a synth shows what a survey of it would use", "statement": "Displaying a synth shows one section for the luminosity, one for the spatial distribution and one for each sampler that a survey would draw, each with the parameter values that object uses; printing gives the same values in the same order.", "quantifier": "for all synths, heaps of samplers, and histories of assignments to and reads of parameters", "why_tests_cant": "A test that calls display or repr on a few synths only shows that nothing is raised; which samplers are left out depends on the dependency graph and on coinciding names, and which parameters are left out depends on what was read before.", "anchors": ["popsynth/population_synth.py:PopulationSynth.display", "popsynth/population_synth.py:PopulationSynth.__repr__", "popsynth/distribution.py:Distribution.display", "popsynth/distribution.py:Distribution.__repr__", "popsynth/auxiliary_sampler.py:AuxiliarySampler.display", "popsynth/auxiliary_sampler.py:AuxiliarySampler.__repr__"]}
{"id": "C70", "title": "The configuration file overrides the defaults, nothing else, and is never rewritten", "statement": "Importing the package gives a configuration with the value of the user's file wherever the file has one, converted to the type of the field, and the default everywhere else; a file with an unknown entry or a value of the wrong type is refused; an existing file is not changed, and without a file the defaults are written, which the next import reads back unchanged. Levels, handlers, cosmology and progress bars follow that configuration, and every file that is accepted can be used.", "quantifier": "for all configuration trees, files, conversions of values, and paths", "why_tests_cant": "The tests merge two fixed files and look at three entries; that all other entries keep their defaults, which files are refused, and that the file is kept concern every file a user may write.", "anchors": ["popsynth/utils/configuration.py:PopSynthConfig", "popsynth/utils/configuration.py:popsynth_config", "popsynth/utils/logging.py:setup_logger", "popsynth/utils/cosmology.py:Cosmology"]}
{"id": "C71", "title": "Ready-made populations can be written, read and surveyed again", "statement": "A population made by any class of popsynth/populations, with any arguments its constructor accepts, can be written by to_dict and read back by from_dict; what is read has exactly the arguments that were given, and drawing a survey from it gives the same population, or the same exception, as drawing it from the original.", "quantifier": "for all ready-made population classes, all arguments they accept, all methods of the distribution classes, all random states and arguments of draw_survey", "why_tests_cant": "The tests write and read one configuration made by hand and compare nothing drawn from it; whether every ready-made class survives the round trip for every argument is a statement about 25 constructors and all values.", "anchors": ["popsynth/populations/spatial_populations.py", "popsynth/populations/bpl_population.py", "popsynth/populations/pareto_populations.py", "popsynth/populations/schechter_populations.py", "popsynth/populations/lognormal_population.py", "popsynth/population_synth.py:PopulationSynth.to_dict", "popsynth/population_synth.py:PopulationSynth.from_dict", "popsynth/population_synth.py:PopulationSynth.draw_survey"]}
{"id": "C72", "title": "What a configuration file asks for is what a survey detects", "statement": "In a survey of the synth that from_dict builds from a dictionary, every detected object satisfies all bounds that the dictionary's flux, spatial and sampler selections state, and if all its selections are bounds, every object that satisfies them is detected. Without a distance selection every detected object has a known distance; with one that states bounds, the distances within the bounds are known.", "quantifier": "for all dictionaries with the registered selections, all samplers with all dependencies among them, all distributions, all random states and all arguments of draw_survey", "why_tests_cant": "It joins reading the file, the wiring of samplers, the order of drawing and the application of selections; tests draw a few surveys and do not compare the detected objects with the file.", "anchors": ["popsynth/population_synth.py:PopulationSynth.from_dict", "popsynth/population_synth.py:PopulationSynth.draw_survey", "popsynth/selection_probability/generic_selectors.py", "popsynth/selection_probability/flux_selectors.py", "popsynth/selection_probability/spatial_selection.py"]}
{"id": "C73", "title": "Positions follow the law the distribution declares", "statement": "If numpy's uniform numbers are fair (independent, uniform), draw_distance almost surely returns, and the distances it leaves are independent of each other and of everything drawn later, each with a density proportional to the density of the class on [0, r_max]; draw_sky_positions returns independent isotropic positions. This holds exactly when the largest density on the 500 point grid bounds the density almost everywhere; otherwise the density is cut off there.", "quantifier": "for all classes of the modelled form, all parameter values, all numbers of objects and almost all states of the random number generator", "why_tests_cant": "A law of random numbers is a statement about all generator states at once; tests compare histograms of a few thousand draws of one seed, which cannot show that a loop returns almost surely, that draws are independent, or small deviations of the density.", "anchors": ["popsynth/distribution.py:SpatialDistribution.draw_distance", "popsynth/distribution.py:SpatialDistribution.draw_sky_positions", "popsynth/utils/rejection_sample.py", "popsynth/utils/spherical_geometry.py:sample_theta_phi"]}
{"id": "C74", "title": "A survey is a Poisson number of independent sources, detected independently", "statement": "If numpy's uniform, Poisson, normal and Bernoulli numbers have the laws they are named after, draw_survey (synth without auxiliary samplers and without spatial or distance selection, normalize=False) almost surely returns, and the population it returns consists of a Poisson number of independent sources: the mean is the integral of the density, distances follow the (cut) density, positions are isotropic, luminosities follow the law of the luminosity distribution, observed fluxes are the fluxes with a log-normal error, and each source is detected with the probability the flux selection assigns to its observed flux, independently of all others. With n_samples=n there are exactly n of them. The built-in flux selections detect with probability one, above, below or between limits, with the logistic function, or with a constant probability.", "quantifier": "for all spatial distributions of the modelled form, all luminosity laws, fluxes, selections of this kind, numbers of objects, and almost all states of the random number generator", "why_tests_cant": "It is a statement about the joint law of all numbers a survey draws; tests look at single surveys of single seeds, which cannot show independence, the law of the number of objects, or that a survey returns with probability one.", "anchors": ["popsynth/population_synth.py:PopulationSynth.draw_survey", "popsynth/selection_probability/flux_selectors.py", "popsynth/selection_probability/generic_selectors.py", "popsynth/distribution.py:SpatialDistribution.draw_distance"]}
{"id": "C75", "title": "Detected and undetected sources are independent Poisson processes", "statement": "Under the assumptions of C74 the sources that the selected parts of the population's variables show form a Poisson process whose intensity is the mean number of objects times the law of a source times its probability of detection; the non-selected parts show a Poisson process with the complementary intensity, and the two are independent. The numbers of detections and non-detections are independent Poisson numbers with the integrals of these intensities as means, and the probability of a survey without detections is the exponential of minus that integral.", "quantifier": "for all surveys as in C74 and almost all states of the random number generator", "why_tests_cant": "This is the likelihood that the Stan models fitted to popsynth's populations assume; no finite number of surveys shows that two random catalogues are independent or what the law of a whole catalogue is.", "anchors": ["popsynth/population_synth.py:PopulationSynth.draw_survey", "popsynth/simulated_variable.py:SimulatedVariable.selected", "popsynth/simulated_variable.py:SimulatedVariable.non_selected", "popsynth/population.py:Population"]}
{"id": "C76", "title": "Luminosity distributions draw independent luminosities from their luminosity function", "statement": "If numpy's uniform and normal numbers and scipy's Bernoulli trials have the laws they are named after and gammaincinv inverts the incomplete gamma function, draw_luminosity(n) of the Pareto, Schechter, log-normal, log10-normal, log-uniform, delta and broken power law distributions almost surely returns n independent luminosities whose law has the documented density, with the parameters stored in the object, and phi of the object returns that density for them. These are the luminosities that the law of surveys (C74) asks for. phi of Log10NormalDistribution instead returns log(10), more than twice, the density.", "quantifier": "for all valid parameters, all sizes, and almost all states of the random number generator", "why_tests_cant": "It is the joint law of arrays of any size under all parameters; tests compare a few numbers of one seed, and independence and a density cannot be read off any finite sample.", "anchors": ["popsynth/distributions/pareto_distribution.py", "popsynth/distributions/schechter_distribution.py", "popsynth/distributions/log_normal_distribution.py", "popsynth/distributions/log10_normal_distribution.py", "popsynth/distributions/uniform_distribution.py", "popsynth/distributions/delta_distribution.py", "popsynth/distributions/bpl_distribution.py"]}
{"id": "C77", "title": "The number of detections has the mean of population theory", "statement": "For a survey as in C74 whose density is at most its highest value on the grid and whose number of objects is the exact integral of the density, the number of detected and the number of undetected objects are independent Poisson numbers. Their means are the integrals over distance (with the density as weight), luminosity and measurement error of the probability that an object there is detected, and missed. Without measurement error and with a hard flux limit the first is the integral of the density times the probability of a luminosity bright enough at that distance.", "quantifier": "for all surveys as in C74, all luminosity laws and flux selections", "why_tests_cant": "It relates the law of an integer returned by a survey to a multiple integral over all distances, luminosities and errors; tests see single numbers.", "anchors": ["popsynth/population_synth.py:PopulationSynth.draw_survey", "popsynth/population.py:Population.n_detections", "popsynth/distribution.py:SpatialDistribution"]}
{"id": "C78", "title": "Source counts of a sphere of constant density", "statement": "ConstantSphericalDistribution with a hard flux limit F, in a sphere that contains the horizons of all objects, leads to a Poisson number of detections whose mean is the number of objects in balls with the radius of the horizon, averaged over the luminosity function, and Euclidean source counts: a limit lower by a factor k means k^(3/2) times as many objects.", "quantifier": "for all densities, flux limits and luminosity laws", "why_tests_cant": "The scaling of the mean number of detections with the flux limit cannot be seen in the noisy number of a single survey.", "anchors": ["popsynth/distributions/spherical_distribution.py:SphericalDistribution.transform", "popsynth/distributions/spherical_distribution.py:ConstantSphericalDistribution", "popsynth/population_synth.py:PopulationSynth.draw_survey"]}
{"id": "C79", "title": "Laws of the built-in auxiliary samplers", "statement": "The true values drawn by the built-in auxiliary samplers are independent and have the law the class is named after: normal, log-normal (natural and decimal), a fixed value, normal and log-normal conditioned on the limits, Pareto, power law and continuous broken power law between limits, isotropic viewing angles, uniform right ascensions and polar angles. Measurement errors of observed properties are independent normal numbers with standard deviation sigma, independent of the true values.", "quantifier": "for all parameter values in range and all numbers of objects", "why_tests_cant": "A law is a statement about all events; a goodness-of-fit test on finitely many draws does not see a wrong truncation limit, a slightly wrong normalization or a dependence between values.", "anchors": ["popsynth/aux_samplers/normal_aux_sampler.py:NormalAuxSampler", "popsynth/aux_samplers/lognormal_aux_sampler.py:LogNormalAuxSampler", "popsynth/aux_samplers/trunc_normal_aux_sampler.py:TruncatedNormalAuxSampler", "popsynth/aux_samplers/plaw_aux_sampler.py:PowerLawAuxSampler", "popsynth/aux_samplers/viewing_angle_sampler.py:ViewingAngleSampler"]}
{"id": "C80", "title": "Law of surveys with attached samplers", "statement": "In a survey with auxiliary samplers attached to the synth, the objects are independent; each has position and luminosity as without the samplers, and for every sampler a true value, an observed value and a selection that depend only on what the sampler sees of the object and on chance of its own, independent between samplers and objects. An object is detected if the flux selection and all samplers select it, so its probability of detection is the product of those of the flux selection and of the samplers. With a Poisson number of objects, detected and undetected objects with all their properties are independent Poisson processes, and the numbers of detections and of non-detections are independent Poisson numbers whose means are integrals of that product. The columns of the catalogue hold these values. Samplers that select everything leave the probabilities of detection alone.", "quantifier": "for all lists of attached samplers without secondaries whose true values, errors and selections use independent random numbers (the built-in classes with the unity, bound, box, soft and Bernoulli selections among them), all flux functions and numbers of objects", "why_tests_cant": "Joint laws of all columns and flags cannot be checked on finitely many catalogues; a test does not see a dependence between samplers, or a selector applied to the wrong column only for some objects.", "anchors": ["popsynth/population_synth.py:PopulationSynth.draw_survey", "popsynth/auxiliary_sampler.py:AuxiliarySampler.draw", "popsynth/auxiliary_sampler.py:AuxiliarySampler._apply_selection", "popsynth/selection_probability/selection_probability.py:SelectionProbability"]}
{"id": "C81", "title": "issubclass of the package's classes", "statement": "issubclass(c, cls) for a class cls made by ParameterMeta returns whether cls is among the bases of c (or c is a subclass of a class registered with or derived from cls); for anything that is not a class it raises TypeError.", "quantifier": "for all class hierarchies, all classes c and cls, and all contents of the caches", "why_tests_cant": "Tests try a few pairs of classes in one hierarchy, and none of the existing tests calls issubclass on a class of the package; the claim is about every hierarchy, including classes users derive.", "anchors": ["popsynth/utils/meta.py:ParameterMeta.__subclasscheck__"]}
{"id": "C82", "title": "The version string names the source tree", "statement": "The version computed for a checkout names its tree: what git describe prints is read back exactly (tag, distance, commit, dirtiness); a clean checkout of a tag has that tag as its version and no other tree has; two trees with the same version have the same tag, distance and dirtiness, and the same abbreviated commit unless both are at the tag. An archive takes the least of its tags with the prefix, and without git or keywords the directory name decides. An error of one method leads to the next method and never leaves get_versions.", "quantifier": "for all outputs of git, all tags, distances and commits, all lists of references and all directory names", "why_tests_cant": "There are no tests of _version.py; a test needs a repository in a given state and sees one state at a time, while the claim compares the versions of every pair of trees and covers tags of every shape.", "anchors": ["popsynth/_version.py:git_pieces_from_vcs", "popsynth/_version.py:render_pep440", "popsynth/_version.py:git_versions_from_keywords", "popsynth/_version.py:versions_from_parentdir", "popsynth/_version.py:render", "popsynth/_version.py:get_versions"]}
{"id": "C83", "title": "Classes that users derive", "statement": "A class derived from a base class of the package, in any number of steps, can be instantiated exactly if the steps define every method the base class leaves open (dNdV, differential_volume and transform; phi and draw_luminosity; draw; true_sampler; compute_luminosity). Its class statement then makes it available to configurations under its name, and changes the meaning of no other name; a class with open methods is not registered.", "quantifier": "for all class bodies, all lines of inheritance and all sequences of class statements", "why_tests_cant": "Tests define a handful of subclasses; the claim is about every class a user may write and every order of class statements, and a class that replaces another goes unnoticed until a configuration asks for the replaced one.", "anchors": ["popsynth/utils/meta.py:ParameterMeta.__new__", "popsynth/utils/registry.py", "popsynth/distribution.py:SpatialDistribution", "popsynth/distribution.py:LuminosityDistribution", "popsynth/selection_probability/selection_probability.py:SelectionProbability", "popsynth/auxiliary_sampler.py:AuxiliarySampler"]}
{"id": "C84", "title": "Law of surveys with secondary samplers and derived luminosities", "statement": "In a survey whose attached samplers have secondaries, to any depth, and whose luminosities come from a distribution or from a derived luminosity sampler with secondaries, the objects are independent. A secondary is drawn before the sampler that uses it; the true value of a sampler depends only on its own random numbers, on what it sees of the object and on the true and observed values of its direct secondaries for the same object. Secondaries of attached samplers and everything drawn for the luminosities see no luminosities. The derived luminosity of an object is the function that the sampler computes from its own values and those of its secondaries. An object is detected if the flux selection and all samplers, secondaries included, select it. The catalogue holds, for every sampler under its name, these values, and a Poisson number of objects.", "quantifier": "for all trees of samplers whose true values, errors and selections use independent random numbers (the built-in classes and the samplers DemoSampler and DemoSampler2 of the test suite among them, with unity, bound, box, soft and Bernoulli selections), all sources of luminosities, flux functions and numbers of objects", "why_tests_cant": "Joint laws of all columns and flags cannot be checked on finitely many catalogues. A test does not see values of a secondary that belong to another object, a secondary drawn twice, or a selection of a secondary that is forgotten for some trees.", "anchors": ["popsynth/population_synth.py:PopulationSynth.draw_survey", "popsynth/auxiliary_sampler.py:AuxiliarySampler.draw", "popsynth/auxiliary_sampler.py:AuxiliarySampler.get_secondary_objects", "popsynth/auxiliary_sampler.py:DerivedLumAuxSampler", "popsynth/test/test_basic.py:DemoSampler", "popsynth/test/test_basic.py:DemoSampler2"]}
{"id": "C85", "title": "Reading damaged population files", "statement": "Take a population file that is read without error. If one of its datasets, groups or attributes is removed, reading it raises KeyError; if an array takes the place of a group, AttributeError; if a group takes the place of an array, TypeError; if an array of objects gets another length than the selection, AssertionError. Removing the probabilities gives the same population without probabilities. Links and attributes that the format does not know have no effect. A file that says that it has a luminosity function but lacks its parameters is refused. Files without known distances, as older versions wrote them, are read. A population without parameters of the positions, auxiliary quantities, model spaces, graph or configuration is refused with AttributeError when it is written.", "quantifier": "for all files that can be read, all links and attributes of the format, all values put in their place", "why_tests_cant": "The tests only read files that were just written by the same version. There are 26 links and attributes and arbitrarily many ways to damage each; which exception is caught inside the reader depends on which part is damaged.", "anchors": ["popsynth/population.py:Population._loadfrom", "popsynth/population.py:Population.__init__", "popsynth/utils/hdf5_utils.py:recursively_load_dict_contents_from_group"]}
{"id": "C86", "title": "Faulty configurations", "statement": "Take a configuration from which from_dict builds a survey and spoil one thing. Without spatial distribution or seed, without type or observed in an entry, with an unregistered class, with a secondary that is not in the configuration, or with a cosmological section without is_rate it raises KeyError. A section or entry that is not a dictionary raises AttributeError, an empty section IndexError, an abstract class or unusable constructor arguments TypeError. A distribution of the wrong kind or a parameter out of bounds raises RuntimeError; a value that is no number raises the error of float or int. Faults before the samplers leave the dictionary as it was. Leaving out the luminosity distribution or a selection, or giving None for a selection, changes nothing else.", "quantifier": "for all registries of classes, all configurations that load, all values put in place of a section, entry or parameter", "why_tests_cant": "The tests read a few correct YAML files; no test reads a faulty one. Each kind of fault can occur in any section and entry, next to any other content.", "anchors": ["popsynth/population_synth.py:PopulationSynth.from_dict", "popsynth/population_synth.py:PopulationSynth.__init__", "popsynth/utils/meta.py:Parameter.__set__"]}
{"id": "C87", "title": "The law of a survey read from a configuration", "statement": "Read a configuration with from_dict, make the objects it describes and draw a survey. If the configuration names a built-in spatial distribution, a built-in luminosity distribution and a built-in flux selection or none, and nothing else, then the numbers of detected and undetected objects are independent Poisson numbers. Their means are integrals over the density, the luminosity function and the detection probability that the documentation gives for the numbers written in the configuration, with the documented defaults for numbers that are not written. For a sphere of constant density with a flux limit the mean is the density times the mean volume in which an object is brighter than the limit. The same holds with measurement errors: if flux_sigma is given, the means are those for fluxes multiplied by log-normal factors; for a flat space with a flux limit the mean is the number of objects times the probability that the measured flux reaches the limit.", "quantifier": "for all configurations with a built-in spatial distribution (except the spiral galaxy), any built-in luminosity distribution and any built-in flux selection, all parameter values for which the distributions exist, all cosmologies, without measurement errors or with any flux_sigma in decimal or natural logarithms", "why_tests_cant": "The tests read a few YAML files and check that a population comes out. The law connects what a user writes with the statistics of the catalogue; a wrong default, a swapped parameter or a flux of the wrong class would change it without any error.", "anchors": ["popsynth/population_synth.py:PopulationSynth.from_dict", "popsynth/population_synth.py:PopulationSynth.draw_survey", "popsynth/distribution.py:SpatialDistribution", "popsynth/distribution.py:LuminosityDistribution", "popsynth/distributions/spherical_distribution.py", "popsynth/distributions/cosmological_distribution.py", "popsynth/distributions/uniform_distribution.py", "popsynth/selections/flux_selectors.py"]}
{"id": "C88", "title": "The law of the known distances of a survey", "statement": "Draw a survey whose distance selection is a BernoulliSelection with probability q. The detected objects with known distance, the detected objects with unknown distance and the undetected objects are three independent Poisson processes; the intensity of detected objects is shared in the ratio q to 1-q. The population's known distances are the distances of the first process. draw_survey always returns. (It does not: it takes the maximum of the known distances for a log message and raises ValueError when something is detected and no distance is known, with probability exp(-qD)(1-exp(-(1-q)D)) for D the mean number of detections.)", "quantifier": "for all surveys with a law as in C74, all probabilities q in [0,1], all generators with fair uniform, Poisson, normal and Bernoulli numbers", "why_tests_cant": "Tests draw few surveys with many detections, for which the failure is improbable. Independence and exact probabilities are statements about the law of all surveys.", "anchors": ["popsynth/population_synth.py:PopulationSynth.draw_survey", "popsynth/population_synth.py:PopulationSynth.set_distance_selection", "popsynth/selection_probability/generic_selectors.py:BernoulliSelection", "popsynth/population.py:Population"]}
{"id": "C89", "title": "Arrays derived from simulated variables keep objects together", "statement": "An array obtained from a simulated variable by indexing, copying, taking entries, repeating, sorting or joining consists of objects of that variable: every entry has the latent value and the selection of its own object, and the array can be split into selected and non-selected entries. (Indexing and copying do. The others go through __array_finalize__, which hands on the latent values and the selection of the whole variable in their old order, or nothing at all: np.sort gives objects the latent values of others unless the variable was sorted already, take and repeat give arrays whose selected raises IndexError, concatenate gives an array without latent values.)", "quantifier": "for all simulated variables with different latent values, all indices, all lists of positions, all numbers of repetitions", "why_tests_cant": "Tests of the class index and copy a few arrays. Sorted or joined variables look right, since the observed values are right; only the latent values and the selection are wrong.", "anchors": ["popsynth/simulated_variable.py:SimulatedVariable.__array_finalize__", "popsynth/simulated_variable.py:SimulatedVariable.__getitem__", "popsynth/simulated_variable.py:SimulatedVariable.selected", "popsynth/simulated_variable.py:SimulatedVariable.non_selected"]}
{"id": "C90", "title": "Cosmological distances are those of a flat universe", "statement": "The luminosity distance, the comoving volume per redshift, the fluxes and the expected numbers of objects per steradian of the package are those of a flat universe of matter and a cosmological constant, up to the error of the rational function the package uses: 0.26% for distances and 0.53% for volumes, fluxes and numbers if at least 30% of the density is matter, 2% for distances if at least 20% is. (The package accepts every density of matter. With at most 10% matter every distance up to redshift 0.04 is at least 14% too large, so Hubble's law fails.)", "quantifier": "for all densities of matter, all Hubble constants, all redshifts from zero on, all luminosities", "why_tests_cant": "Tests can compare distances with a numerical integral at some redshifts for the default density of matter. They say nothing about other redshifts or other settings.", "anchors": ["popsynth/utils/cosmology.py:Cosmology.luminosity_distance", "popsynth/utils/cosmology.py:Cosmology.Phi", "popsynth/utils/cosmology.py:Cosmology.differential_comoving_volume", "popsynth/distributions/cosmological_distribution.py:CosmologicalDistribution.transform"]}
{"id": "C91", "title": "Synths written to a YAML file are read back", "statement": "write_to writes the configuration of a synth to a YAML file and changes no other file; if it fails, the file keeps what it had. from_file gives the synth that was written, with the same seed, distributions, selections, samplers and order of samplers, and leaves the file as it is. Writing the synth that was read gives the same document. (The document written is that of to_dict with sorted keys, and reading changes no file. But the file is opened, and so emptied, before the configuration is made and represented: if that fails, for instance for numpy numbers, the old configuration is lost. Sorting puts is_rate before names of classes that come later in the alphabet, which then cannot be read, and samplers come back in alphabetical order.)", "quantifier": "for all registries, synths, files and values; for the round trip all configurations that to_dict describes completely", "why_tests_cant": "Tests write one synth of built-in classes with Python numbers to a new file. Failing writes over old files, user classes in lower case and the order of samplers are not tried.", "anchors": ["popsynth/population_synth.py:PopulationSynth.write_to", "popsynth/population_synth.py:PopulationSynth.from_file", "popsynth/population_synth.py:PopulationSynth.to_dict"]}
{"id": "C92", "title": "Flux-limited surveys have Malmquist bias", "statement": "In a survey whose selection favours bright objects (a lower limit on the flux, a soft limit, a coin, or none; with or without measurement error), for every threshold the numbers of detected and undetected objects above and below a luminosity, or within and beyond a distance, are independent Poisson numbers. Luminous objects and near objects have at least the share of the detected objects that they have of the population, and at most that share of the undetected objects. Spherical and cosmological fluxes are such that this applies.", "quantifier": "for all spatial distributions, all positive luminosity distributions, all luminosity and distance thresholds, all flux limits and strengths, all measurement errors", "why_tests_cant": "The claim compares shares in the mean over infinitely many seeds; one simulated catalogue can show the opposite by chance, and a test fixes one population and one threshold.", "anchors": ["popsynth/population_synth.py:PopulationSynth.draw_survey", "popsynth/distribution.py:SpatialDistribution.draw_distance", "popsynth/distributions/spherical_distribution.py:SphericalDistribution.transform", "popsynth/distributions/cosmological_distribution.py:CosmologicalDistribution.transform", "popsynth/selection_probability/flux_selectors.py:HardFluxSelection", "popsynth/selection_probability/flux_selectors.py:SoftFluxSelection"]}
{"id": "C93", "title": "Weighting detected objects by 1/Vmax recovers the population", "statement": "In a survey of a sphere of constant density with a hard flux limit and no measurement error, the luminosities of the detected objects are a Poisson process whose intensity is the density of the population, times the luminosity function, times the volume in which an object of that luminosity is detected. Summing one over that volume over the detected objects gives an unbiased estimate of the number of objects per unit volume in every range of luminosities, less those that cannot be detected anywhere. (With the volumes of an inverse-square law the estimate is wrong by a factor of eight or more for luminosities up to 16 pi times the limit, because the package adds one to the distance.)", "quantifier": "for all densities, all luminosity distributions whose objects have their horizon inside the sphere, all flux limits, all sets of luminosities, all weights", "why_tests_cant": "Unbiasedness is a statement about the mean over infinitely many seeds. A simulated catalogue has a random estimate, and a test of one luminosity function says nothing about others.", "anchors": ["popsynth/population_synth.py:PopulationSynth.draw_survey", "popsynth/distributions/spherical_distribution.py:ConstantSphericalDistribution", "popsynth/distributions/spherical_distribution.py:SphericalDistribution.transform", "popsynth/selection_probability/flux_selectors.py:HardFluxSelection"]}
{"id": "C94", "title": "V/Vmax of detected objects is uniform", "statement": "In a survey of a sphere of constant density with a hard flux limit and no measurement error, the ratios V/Vmax of the detected objects are independent and uniform between zero and one, for every luminosity function whose objects have their horizon inside the sphere. V is the volume nearer than the object and Vmax the volume in which it would be detected. The mean of their sum is half the mean number of detected objects. (With the volumes of an inverse-square law the mean of the sum is at most a sixteenth of that number for luminosities up to 16 pi times the limit, because the package adds one to the distance.)", "quantifier": "for all densities, all luminosity distributions whose objects have their horizon inside the sphere, all flux limits", "why_tests_cant": "Uniformity and independence are statements about the law over all seeds. A histogram of one simulated catalogue can only be consistent with them, for the luminosity function that was simulated.", "anchors": ["popsynth/population_synth.py:PopulationSynth.draw_survey", "popsynth/distributions/spherical_distribution.py:ConstantSphericalDistribution", "popsynth/distributions/spherical_distribution.py:SphericalDistribution.transform", "popsynth/selection_probability/flux_selectors.py:HardFluxSelection"]}
{"id": "C95", "title": "Measurement errors raise the number of detections (Eddington bias)", "statement": "With log-normal measurement errors and a hard flux limit, the mean number of detections is the mean, over the errors, of the number without errors above a limit that is divided by the factor of the error. In a sphere of constant density in which every object is detected without errors within less than half of the volume, errors of any size raise the mean number of detections, whatever the luminosity function; the number is a Poisson number. If every object of the sphere is brighter than the limit, errors lower the number.", "quantifier": "for all densities, fluxes and luminosity distributions (first part); for all densities, flux limits, error sizes and luminosity distributions whose horizons enclose less than half of the sphere (second part)", "why_tests_cant": "The mean is an integral over all seeds, and the gain is a convexity argument over all luminosity functions and error sizes. A test compares two simulated counts, whose difference is hidden by Poisson noise.", "anchors": ["popsynth/population_synth.py:PopulationSynth.draw_survey", "popsynth/population_synth.py:PopulationSynth.draw_log10_fobs", "popsynth/population_synth.py:PopulationSynth.draw_log_fobs", "popsynth/distributions/spherical_distribution.py:ConstantSphericalDistribution", "popsynth/distributions/spherical_distribution.py:SphericalDistribution.transform", "popsynth/selection_probability/flux_selectors.py:HardFluxSelection"]}
{"id": "C96", "title": "Measured fluxes of detected objects are biased high", "statement": "In a survey with log-normal measurement errors whose detection probability does not fall with the measured flux, objects whose measured flux exceeds the true flux by a given factor have at least the share of the detected objects that they have of the population, and at most that share of the undetected objects. The four numbers are independent Poisson numbers. In particular the detected objects have, in the mean, at least as many fluxes that are measured too high as too low, and the undetected objects at most as many.", "quantifier": "for all spatial densities, luminosity distributions, positive fluxes, error sizes, factors, and detection probabilities that do not fall with the flux", "why_tests_cant": "The shares are ratios of means over all seeds, for every law of the population. One catalogue shows one count of each kind, for one law.", "anchors": ["popsynth/population_synth.py:PopulationSynth.draw_survey", "popsynth/population_synth.py:PopulationSynth.draw_log10_fobs", "popsynth/population_synth.py:PopulationSynth.draw_log_fobs", "popsynth/simulated_variable.py:SimulatedVariable.selected", "popsynth/simulated_variable.py:SimulatedVariable.non_selected", "popsynth/selection_probability/flux_selectors.py:HardFluxSelection", "popsynth/selection_probability/flux_selectors.py:SoftFluxSelection"]}
{"id": "C97", "title": "Detected luminosities and distances are correlated although the population's are independent", "statement": "Divide a survey's objects at any distance and any luminosity. The numbers of detected objects that are far and luminous, far and faint, near and luminous, near and faint are independent Poisson numbers, and so are the four numbers of undetected objects. In the whole population the four mean numbers are products of a share of the distances and a share of the luminosities. Among the detected objects the product of the mean numbers of far luminous and near faint objects is at least the product of the mean numbers of near luminous and far faint objects, so a correlation appears that the population does not have. The same holds for the undetected objects.", "quantifier": "for all spatial densities, luminosity distributions, fluxes that are proportional to the luminosity and fall with distance, thresholds, error sizes, and detection probabilities p such that p and 1 - p are logarithmically concave functions of the logarithmic flux (hard and soft limits, coins, no selection)", "why_tests_cant": "The inequality is between means over all seeds and must hold for every division of every population. A catalogue shows one value of each number for one population, and a correlation coefficient of one catalogue has chance fluctuations.", "anchors": ["popsynth/population_synth.py:PopulationSynth.draw_survey", "popsynth/distributions/spherical_distribution.py:SphericalDistribution.transform", "popsynth/distributions/cosmological_distribution.py:CosmologicalDistribution.transform", "popsynth/simulated_variable.py:SimulatedVariable.selected", "popsynth/simulated_variable.py:SimulatedVariable.non_selected", "popsynth/selection_probability/flux_selectors.py:HardFluxSelection", "popsynth/selection_probability/flux_selectors.py:SoftFluxSelection"]}
{"id": "C98", "title": "Git commands are tried in turn and keywords are read back as written", "statement": "run_command gives the output of the first command that exists, without white space at the ends, if it succeeds; the return code alone if it fails; neither if no command exists or the system refuses; and never raises. git_pieces_from_vcs makes of these outputs what C82 says, and without git the name of the directory decides. git_get_keywords reads the keywords of a version file as they are assigned there, so the version computed from the text of the file is the version the module computes. Missing files or keywords lead to the next method.", "quantifier": "for all behaviours of the operating system, all lists of commands, all platforms, all version files and all values of the keywords", "why_tests_cant": "There are no tests of _version.py. A test runs with one operating system, one git and one version file; the failures that matter are those of other machines.", "anchors": ["popsynth/_version.py:run_command", "popsynth/_version.py:git_pieces_from_vcs", "popsynth/_version.py:git_get_keywords", "popsynth/_version.py:git_versions_from_keywords", "popsynth/_version.py:get_versions"]}
{"id": "C99", "title": "Weighting detected objects by the inverse of their detection probability gives unbiased numbers with a known error", "statement": "The luminosities of the detected objects of a survey are a Poisson process whose intensity is that of the whole population times the probability that an object of that luminosity is detected, its distance and measurement error being drawn. The sum, over the detected objects with luminosities in any set, of one over that probability has as mean the mean number of objects of the population with detectable luminosities in that set. For any weights, the variance of the sum of the weights of the detected objects is the mean of the sum of the squares of their weights. If no luminosity is out of reach, the inverse probabilities add up in the mean to the number of all objects. The same holds for distances. For a flux-limited survey of a sphere of constant density the probability is the volume within reach over the volume of the survey.", "quantifier": "for all spatial densities, luminosity distributions, flux functions, measurement errors, flux selections, sets of luminosities or distances, weights, and for almost all seeds", "why_tests_cant": "Means and variances are over all seeds and all sets of luminosities; a test averages a few catalogues and cannot tell a small bias of the weights, for example from measurement errors left out of the detection probability, from chance.", "anchors": ["popsynth/population_synth.py:PopulationSynth.draw_survey", "popsynth/simulated_variable.py:SimulatedVariable.selected", "popsynth/distributions/spherical_distribution.py:SphericalDistribution.transform", "popsynth/selection_probability/flux_selectors.py:HardFluxSelection", "popsynth/selection_probability/flux_selectors.py:SoftFluxSelection"]}
{"id": "C100", "title": "Selections that do not look at a quantity leave its distribution alone", "statement": "Take an attached sampler whose values and whose own selection do not depend on the position and luminosity of the object. Then the true and observed values of the detected objects of a survey are independent of each other, of positions and of luminosities, and they have the sampler's law given that the sampler itself selects the object, whatever the flux selection and the other samplers select. If the sampler selects every object, the values of the detected objects and those of the undetected objects are two independent samples of the population's values.", "quantifier": "for all spatial densities, luminosity distributions, flux selections, measurement errors, lists of other attached samplers with any selections, and almost all seeds; samplers of the package with a selection that looks at most at the observed value", "why_tests_cant": "Independence of the quantity from the selections of all other quantities is a statement about joint laws. A test compares histograms of some catalogues and cannot exclude a small dependence, for example through random numbers shared between selections.", "anchors": ["popsynth/population_synth.py:PopulationSynth.draw_survey", "popsynth/auxiliary_sampler.py:AuxiliarySampler.draw", "popsynth/simulated_variable.py:SimulatedVariable.selected", "popsynth/simulated_variable.py:SimulatedVariable.non_selected", "popsynth/selection_probability/selection_probability.py:SelectionProbability"]}
{"id": "C101", "title": "Importing the package makes its files and disturbs nothing", "statement": "Importing the package in any file system leaves every file and directory that was there as it was, whether the import succeeds or not, and adds only the directories ~/.config/popsynth and ~/.log/popsynth with their parents, the default configuration file and empty log files. It succeeds exactly if these are there or can be made and the user's configuration file, if any, is accepted; a second import changes nothing and gives the same configuration. Several processes may import the package at the same time.", "quantifier": "for all file systems, home directories, permissions, configuration files, numbers of processes and interleavings of their requests to the operating system", "why_tests_cant": "Tests import the package once, in one home directory, where the directories usually exist already; races between processes depend on the order of system calls, of which there are too many to try.", "anchors": ["popsynth/utils/package_data.py:14-27", "popsynth/utils/configuration.py:6-78", "popsynth/utils/logging.py:54-75"]}
{"id": "C102", "title": "Surveys add up, and completeness cannot be told from density", "statement": "The detected objects of two surveys with independent random numbers, put one after the other, have the law of the detected objects of one survey: numbers in every class of objects are Poisson numbers whose means add up, and if the surveys differ only in density and completeness the combined catalogue has exactly the law of a survey with the sum of the products of density and completeness. In particular a survey of k times the density in which sources are detected 1/k times as often has detected objects of the same law.", "quantifier": "for all pairs of surveys that satisfy the hypotheses of C74 (any spatial class, luminosity law, measurement errors, selection), all factors of density and completeness, all measurable classes of objects", "why_tests_cant": "It is an equality of laws of catalogues of random length; a test can compare a few histograms of a few surveys within their scatter.", "anchors": ["popsynth/population_synth.py:PopulationSynth.draw_survey", "popsynth/distribution.py:SpatialDistribution.draw_distance", "popsynth/simulated_variable.py:SimulatedVariable.selected", "popsynth/selection_probability/generic_selectors.py:BernoulliSelection"]}
{"id": "C103", "title": "Weighting detected objects in surveys with auxiliary samplers, by any features", "statement": "In a survey with attached samplers, secondary samplers and derived luminosities there is, for any features of the objects (positions, luminosity, flux, quantities of samplers), a probability of detection of objects with these features; the sum of its inverse over the detected objects of any class of features has as mean the mean number of such objects that can be detected, with a known error. No other weights by these features have that mean for all classes. Weights by the probability of detection of the flux alone leave out the objects that samplers reject.", "quantifier": "for all surveys with derived or drawn luminosities and any number of samplers with secondaries (hypotheses of C84), all measurable features and classes of features, all measurable weights", "why_tests_cant": "Tests average finitely many surveys with particular samplers; that weights are right in the mean for every class of objects, and that no others are, is a statement about all weights and laws.", "anchors": ["popsynth/population_synth.py:PopulationSynth.draw_survey", "popsynth/auxiliary_sampler.py:AuxiliarySampler.draw", "popsynth/auxiliary_sampler.py:DerivedLumAuxSampler", "popsynth/simulated_variable.py:SimulatedVariable.selected"]}
{"id": "C104", "title": "Log lines say what was logged, and colours end with the record", "statement": "The console shows the name of the level in the colours of the level, then a message without escape characters in the same colours; on a terminal that knows the colour sequences there are no colours afterwards, even if the message has escape characters. Level and message can be read off a console record, time, level and message off a record of usr.log, and everything off a record of dev.log if the names have no bars; files can be read back record by record.", "quantifier": "for all records (any level number, message, names and line numbers) and all sequences of records", "why_tests_cant": "Tests see a few messages; that no two records look the same, and that no message leaves the terminal coloured, is about all texts.", "anchors": ["popsynth/utils/logging.py:ColoredFormatter.format", "popsynth/utils/logging.py:_dev_formatter", "popsynth/utils/logging.py:_usr_formatter", "popsynth/utils/logging.py:_console_formatter"]}
{"id": "C105", "title": "Soft selections with and without logarithm", "statement": "SoftSelection.draw makes one trial per chosen value with the logistic probability of the value (use_log=False) or of its logarithm (use_log=True, the default); an invalid probability makes it fail without using random numbers or touching the mask. Selecting on positive values with logarithm is selecting on their logarithms without. With logarithm the result does not depend on the unit of values and boundary; without, it does not depend on the zero of the scale, and depends on the unit unless the strength is rescaled.", "quantifier": "for all states of the selector, values, parameters and random generators; the statements on units for all real numbers", "why_tests_cant": "The package never uses use_log=False; the statements compare all pairs of selections in different units with the same random state.", "anchors": ["popsynth/selection_probability/generic_selectors.py:SoftSelection.draw", "popsynth/selection_probability/flux_selectors.py:SoftFluxSelection.draw"]}
{"id": "C106", "title": "Histograms of surveys have independent Poisson bars", "statement": "Sort the objects of a survey into disjoint bins by any of their features. The numbers of detected objects in the bins and the numbers of undetected objects in the bins are all independent Poisson numbers; the mean of a bar is the mean number of objects times the integral of the detection (or non-detection) probability over the bin. This holds for the histograms of the distances, of the measured fluxes and of the observed values of every attached or secondary sampler as stored in the population.", "quantifier": "for all surveys as in C84, all numbers of bins and all measurable disjoint bins", "why_tests_cant": "Independence and the Poisson law of counts are statements on the distribution over all random streams; a test sees finitely many seeds and can only reject strong deviations.", "anchors": ["popsynth/population_synth.py:PopulationSynth.draw_survey", "popsynth/simulated_variable.py:SimulatedVariable.selected", "popsynth/simulated_variable.py:SimulatedVariable.non_selected", "popsynth/population.py:Population"]}
