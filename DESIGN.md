# Formal model of popsynth: design and trusted base

The Lean 4 project in `lean/` contains an executable (where possible) model of
the Python package in `/repo/popsynth`, written function by function, and
machine-checked theorems about it.  `properties.jsonl` lists the properties,
`MANIFEST.json` maps each property to theorem names, `seeded/LOG.jsonl` records
mutation tests of the theorems.

## Layout

* `lean/Verif/Model/*.lean` – the model; each definition cites file and lines.
* `lean/Verif/Spec/*.lean` – specifications stated without the model's helpers (some small
  ones stand next to the theorems that use them, in namespace `Popsynth.Spec`).
* `lean/Verif/Lemmas/*.lean` – helper lemmas (no claims).
* `lean/Verif/Props/*.lean` – the property theorems `Cxx_…` with non-vacuity `example`s beside
  them.
* `tools/gen_manifest.py`, `tools/status.json` – generate `MANIFEST.json`.
* `tools/gen_axioms.py` – generates `AXIOMS.md`, the axioms of every theorem.

## Modelling conventions

* **Python exceptions** are values: a method is a function
  `σ → ok a σ | error e σ`; the state reached *before* the exception is kept
  (Python does not roll back), so crash-point claims can be stated.
* **Objects with identity** (samplers and selectors, which may be shared) live
  in a heap addressed by natural-number ids.  Arrays are lists; numpy
  broadcasting of 1-d boolean operands and boolean-mask indexing errors are
  modelled, dtypes only where they matter (`SimulatedVariable.selected`).
* **Floats**: control-flow results are proved for an *arbitrary* type of
  numbers with an *arbitrary* decidable order relation and arbitrary
  arithmetic, so they hold for IEEE doubles, NaN and infinities included.
  Analytic results (densities, inverse CDFs, geometry, cosmology) are proved
  over `ℝ`; rounding is not modelled.
* **Randomness**: random generators are abstract state transformers.  numpy's
  global generator and numba's private generator are separate states.
  Theorems quantify over all generators (hence all streams).
* **External calls** (`quad`, `np.random.*`, scipy, h5py, yaml, networkx,
  DotMap, astropy `SkyCoord`) are parameters or small documented models; they
  are part of the trusted base below.
* **User-written samplers** are arbitrary functions of what the framework hands
  them (own parameters, luminosity, positions, secondary values, size, random
  state) – not of other hidden global state.
* When the code violates a property, the negation is proved with a concrete
  witness (`…_fails…` / `…_violated…`), and the true part is kept under a
  `_partial` name with the full property quoted above it.

## Plan per property

| id | modelled | how proved |
|----|----------|-----------|
| C01–C03 | `Parameter.__get__/__set__`, per-instance storage, arbitrary order relation | refinement of operation histories to "last accepted assignment" map, induction over histories |
| C04 | loop of `ParameterMeta.__new__` | code violates it: guard unreachable for every attribute list |
| C05, C06 | `draw` of Lower/Upper/Box/Soft, flag cascade | case analysis, pointwise characterisation over list index |
| C07 | `__add__` with numpy 1-d broadcasting | algebra of masks, permutation induction |
| C08 | `select/reset/selection` | history induction against an abstract "current mask" machine |
| C09 | counts and `np.where` | list induction |
| C10 | `DistanceSelection`, `GalacticPlaneSelection` (latitudes from `SkyCoord` are an input) | pointwise + order lemma |
| C11 | `expit` over ℝ, Bernoulli with stream | real analysis; stream induction |
| C12–C17 | sampler heap, `draw`, `reset`, `get_secondary_properties`, `SecondaryStorage.__add__`, with Python recursion limit as fuel | induction on a rank of the acyclic graph, event log for "exactly once / before" |
| C18–C26, C58, C59 | `draw_survey` statement by statement over the sampler heap | inversion of the monadic program, invariants, relational (two-run) reasoning for reproducibility |
| C27, C28, C46 | `draw_distance`, adaptive quadrature as decision tree, progress/no-progress paths | effect analysis; interval integrals over ℝ |
| C29 | `add_observed_quantity` | invariant over operation lists |
| C30–C33, C57 | `Population.__init__`, `to_stan_data`, `to_sub_population`, `__setattr__`, model spaces | list lemmas, counterexamples |
| C34–C37 | `SimulatedVariable` incl. `__array_ufunc__`, buffers with aliasing, dtype of masks | naturality of elementwise maps, counterexamples |
| C38, C39 | `hdf5_utils` over a tree model of HDF5 with path strings | structural induction |
| C40 | `_writeto/_loadfrom` | field-by-field round trip; counterexample for lost fields |
| C41–C43 | `to_dict/from_dict`, registry of classes, constructor-signature fallbacks | round-trip over sampler heap; counterexamples |
| C44 | `_build_graph` | invariant/characterisation of edges |
| C45 | `rejection_sample` | partial correctness for all streams, measure of the acceptance set |
| C47–C54 | formulas over ℝ | Mathlib integrals, monotonicity |
| C55 | table of constructors | all classes, all values |
| C56 | logging state machine | history induction, counterexample for nesting |
| C60, C61 | sources of a survey's values; setters of the synth | inversion of the survey program; histories of setter calls |
| C62 | the built-in auxiliary samplers over arbitrary numerical primitives | inversion and forward execution of each method |
| C63 | `from_dict` against a description of what a dictionary means | soundness, completeness, uniqueness of the description |
| C64 | the class statements and registries of the package | case analysis over the classes, then C41 and C63; counterexamples |
| C65 | state after a draw or survey, whether it returns or raises | invariant over every step of `draw` and `draw_survey`; counterexamples |
| C66 | density of each spatial distribution, `expectedCount`, volume element | integrals over balls in three dimensions (Mathlib), counterexamples |
| C67 | plots, `display`, `__repr__` of populations, colour scale | lists of drawn objects, counterexamples |
| C68 | whole surveys of two synths with corresponding objects; `to_dict` on the heap | relational proof over every function of `draw_survey`, refinement, counterexample |
| C69 | `display` and `__repr__` of synths, distributions and samplers | sections of a display, parameter histories, counterexamples |
| C70 | the package configuration, its file, and what logging and cosmology read from it | induction over configuration trees, counterexample |
| C71 | the constructors of `popsynth/populations` (C55), `to_dict`, `from_dict`, surveys | case analysis over the constructors, then C64 and C68 |
| C72 | `from_dict`, the objects in memory, `draw_survey` with the registered selections | C63 (reading), C19 (selection), C60, read from the sections of the dictionary |
| C73 | `rejection_sample`, `draw_distance`, `draw_sky_positions` | measures (Mathlib): a probability measure on generator states, `Spec.Samples`, density laws, independence as product measure |
| C74 | `draw_survey` as a whole, built-in flux selections | measures: `Spec.SkySource`, `Spec.sourceLaw`, `Spec.flagged`, `Spec.poissonSample`, `Spec.Holds` |
| C75 | `draw_survey`, `SimulatedVariable.selected`, `non_selected` | `Spec.poissonProcess` (a measure on lists), `Spec.Splits` |
| C76 | `draw_luminosity`, `phi` of the built-in luminosity classes | `Spec.Luminous`, `Spec.lumLaw` (law with the documented density) |
| C77 | `draw_survey`, `n_detections` | `Spec.expected` (integral over distance, luminosity, error) |
| C78 | `SphericalDistribution.transform`, `ConstantSphericalDistribution`, `draw_survey` | `Spec.ballCounts` (objects within their horizon) |
| C79 | `true_sampler`, `observation_sampler` of the built-in auxiliary classes | `Spec.AuxDraws`, `Spec.AuxErrors`; Gaussian and conditional measures of Mathlib |
| C80 | `draw_survey` with auxiliary samplers, `draw`, `_apply_selection`, built-in selections | `Spec.Player`, `Spec.Plays`, `Spec.Entourage`, `Spec.HoldsAux`; measures |
| C81 | `ParameterMeta.__subclasscheck__` | `Spec.Sub`, an inductive relation on the bases, registered and derived classes |
| C82 | `_version.py` | `Spec.described`, `Spec.Hex`, `Spec.Dec`, `Spec.Trim`, `Spec.RefName`, `Spec.refLine` |
| C83 | `ParameterMeta.__new__`, the registries, class statements of users | `Spec.Pending`, `Spec.CalledName`, `Spec.LastCalled`, `Spec.duties` |
| C84 | `draw_survey` with secondary samplers and derived luminosities, `DemoSampler`, `DemoSampler2` | `Spec.Troupe`, `Spec.Company`, `Spec.Act`, `Spec.Leads`, `Spec.surveyLaw` |
| C85 | `Population._loadfrom`, `Population.__init__` on damaged files | `Spec.LinkChanged`, `Spec.AttrGone`, `Spec.arrayLinks`, `Spec.groupLinks`, `Spec.knownLinks`, `Spec.fileAttrs` |
| C86 | `from_dict` on faulty configurations | `Spec.EntryChanged`, `Spec.BadSection`, `Spec.NoNumber`, `Spec.OutOfBounds`, `Spec.Names` |
| C87 | the built-in classes behind the names in a configuration; `from_dict` and `draw_survey` together | `Spec.Space`, `Spec.Luminosities`, `Spec.Detection`, `Spec.meanDetected`, `Spec.meanMeasured`, `Spec.FairMachine`, `Spec.FairNoise` |
| C88 | `draw_survey` with a `BernoulliSelection` as distance selection | `Spec.ShowsKnown`, `Spec.FreshCoin`, `Spec.poissonProcess` |
| C89 | `__array_finalize__`, derived arrays | `Spec.triples`, `Spec.Belongs` |
| C90 | `Cosmology.luminosity_distance`, `differential_comoving_volume`, fluxes | `Spec.luminosityDistance`, `Spec.volumeElement`, `Spec.flux` (integrals over the expansion rate) |
| C91 | `write_to`, `from_file` | `Spec.SameDoc`, `Spec.SortedDoc`, `Spec.Foreign`, `Spec.Dumpable` |
| C92 | `draw_survey` with a selection on fluxes | `Spec.Dimming`, `Spec.Favours`, shares of the mean numbers |
| C93 | `draw_survey` of a `ConstantSphericalDistribution` with a hard flux limit | `Spec.ballVolume`, `Spec.reach`, `Spec.euclidReach` |
| C94 | `draw_survey` of a `ConstantSphericalDistribution` with a hard flux limit | `Spec.volumeShare` |
| C95 | `draw_survey` with `flux_sigma` and a hard flux limit | `Spec.errorFactor`, `Spec.seenVolume` |
| C96 | `draw_survey` with `flux_sigma`, `selected`, `non_selected` of the fluxes | `Spec.excess`, `Spec.excessCounts`, `Spec.Rising` |
| C97 | `draw_survey`, `selected`, `non_selected` of distances and luminosities | `Spec.quadrants`, `Spec.fourPoisson`, `Spec.LogConcave`, `Spec.Dilution` |
| C98 | `run_command`, `git_pieces_from_vcs`, `git_get_keywords`, `git_versions_from_keywords` | `Spec.First`, `Spec.outputs`, `Spec.Assigns` |
| C99 | `draw_survey`, `selected` of luminosities and of distances | `Spec.seenAt`, `Spec.seenLuminosity`, `Spec.seenDistance`, `Spec.poissonProcess` |
| C100 | `draw_survey`, `AuxiliarySampler.draw`, `selected` and `non_selected` of quantities | `Spec.Unrelated`, `Spec.detectionBut`, `Spec.Shows`, `Spec.poissonSample` |
| C101 | `get_path_of_log_dir`, `get_path_of_log_file`, files of configuration.py and logging.py at import | `Spec.Tree`, `Spec.Own`, `Spec.Grown`, `Spec.Room`, `Spec.Present`, `Spec.Settled`, `Spec.Step` |
| C102 | `draw_survey` called for two surveys | `Spec.Campaign`, `Spec.Campaign.found`, `Spec.Campaign.Finds`, `Spec.Campaign.Variant`, `Spec.poissonProcess` |
| C103 | `draw_survey`; `AuxiliarySampler.draw`, `compute_luminosity`, `SimulatedVariable.selected` | `Spec.Completeness`, `Spec.SplitsAll`, `Spec.fateSeen`, `Spec.surveyFate` |
| C104 | utils/logging.py `ColoredFormatter.format`, the three formats | `Spec.Terminal`, `Spec.levelStyles`, `Spec.styled`, `Spec.Loggable` |
| C105 | `SoftSelection.draw` with `use_log` | `Spec.SoftInput`, `Spec.source` |
| C106 | histograms of `Population` variables after `draw_survey` | `Spec.Binned`, `Spec.barMean` |

## What is modelled

| file in `/repo/popsynth` | model | left out |
|---|---|---|
| `utils/meta.py` | `Model/Param.lean`: `Parameter`, `ParameterMeta`, histories of accesses; `Model/Subclass.lean`: `__subclasscheck__` and inherited sets; `Model/UserClass.lean`: class statements of users | `__repr__`, docstring handling |
| `selection_probability/*.py` | `Model/Selection.lean`: all built-in selections, masks, `+`; `Model/SoftDraw.lean`: soft selections with `use_log` | user-written `SpatialSelection` subclasses; `SkyCoord` (latitudes are an input) |
| `auxiliary_sampler.py` | `Model/Sampler.lean`: sampler heap, `draw`, `reset`, secondaries, containers; `Model/Config.lean`: `get_secondary_objects`; `Model/SynthDisplay.lean`: `display`, `__repr__` | how values are written |
| `aux_samplers/*.py` | `Model/AuxSamplers.lean`: every class; `Model/PowerLaw.lean`, `Truncated.lean`, `Sky.lean`: their formulas over `ℝ` | plain attributes set by users; `loc` arrays of length one |
| `distribution.py` | `Model/Distance.lean`: `draw_distance` with both paths, normalization; `Model/Sky.lean`: angles; `Model/SynthDisplay.lean`: `display`, `__repr__` | `SpatialContainer` beyond its fields |
| `distributions/*.py` | `Model/SpatialClasses.lean`, `Luminosity.lean`, `LumClasses.lean` (the same as methods of objects), `PowerLaw.lean`, `Cosmology.lean`, `Sky.lean` | |
| `population_synth.py` | `Model/Survey.lean`: `draw_survey` statement by statement, `clean`, setters; `Model/Config.lean`: `to_dict`, `from_dict`; `Model/Graph.lean`: `_build_graph`; `Model/Grid.lean` and `Survey.lean`: model spaces; `Model/SynthDisplay.lean`: `display`, `__repr__`; `Model/SynthFile.lean`: `write_to`, `from_file` | YAML text |
| `population.py` | `Model/Population.lean`, `PopulationOps.lean`, `PopulationFile.lean`, `Display.lean` | sizes, colours and styles of plots |
| `simulated_variable.py` | `Model/SimVar.lean`; `Model/Derived.lean`: arrays derived from others by NumPy | arrays of more than one dimension |
| `populations/*.py` | `Model/Populations.lean`: every constructor; `Model/ReadyMade.lean`: what `to_dict` reads off the result | |
| `utils/hdf5_utils.py`, `rejection_sample.py`, `logging.py`, `cosmology.py`, `spherical_geometry.py` | `Model/Hdf5.lean`, `Distance.lean`, `Logging.lean`, `LogText.lean`, `Cosmology.lean`, `Sky.lean` | numba compilation (see below) |
| `utils/registry.py`, `__init__.py` | a parameter (`Registry`) of the configuration model; `Model/Builtins.lean`: all class statements of the package and what the metaclasses register | the registry library itself |
| `utils/array_to_cmap.py` | `Model/Display.lean` | the colour maps |
| `utils/configuration.py` | `Model/Settings.lean`: import, merge with the user's file, what other modules read | OmegaConf itself, see below |
| `utils/package_data.py`, files of `utils/configuration.py` and `utils/logging.py` | `Model/Files.lean`: requests to the operating system at import, interleaved processes | `get_path_of_data_file`, rotation of the logs |
| `_version.py` | `Model/Version.lean`: from the answers of git or the keywords to the version; `Model/VersionRun.lean`: running git, reading the keywords from the file | messages of `verbose=True` |
| `utils/progress_bar.py` | a flag of the loops that differ with and without progress bar (`Distance.lean`, `Selection.lean`) | what `tqdm` shows |

## Simplifications, by part

* **Parameters.** `underscore` attribute names are not looked up; values are numbers or `None`.
* **Survey.** One optional derived luminosity sampler stands for the pair of attribute and flag;
  unset positions raise earlier than in the code; `to_dict` inside the survey is a parameter.
* **C24.** The hypotheses `Spec.Configured` say what "working parts" are; among them: a dependency
  of a dependency uses no position, and the distance selection keeps at least one known distance
  (without it the survey raises, C26).
* **SimulatedVariable.** One-dimensional arrays; selections are 0/1 arrays with a dtype; the
  operand of an in-place operator is a scalar or an equally long variable.
* **Graph.** A `DiGraph` is a list of nodes in order of insertion and a list of edges.
* **Logging.** Levels are numbers; handlers are those created by the package, and a message
  reaches a handler if the logger lets it through and the level and filters of the handler do.
* **Grids.** `linspace`/`logspace` in exact arithmetic.
* **HDF5.** h5py 3; insertion order is kept where h5py sorts, and dictionaries are compared
  without order; `chk` is what h5py refuses; `repr` of bytes escapes only the backslash; a file
  without known distances is refused when read; name, graph and truth of a loaded population are
  kept beside it because their types differ; groups are flat; numbers survive storage.
* **Configuration.** Selectors are values; `init variables` are only accepted or refused; keys that
  name a class attribute that is not a parameter are ignored; constructors leave the storage empty;
  C43 does not compare the recorded parents.
* **Registries (C64).** A class is the list of bodies along its `mro`; a class is registered under
  its registry name when it has no abstract method (the `class_registry` library is taken at its
  documented word); classes written by users are covered by C41, not by C64; `init variables` called
  `name` or `observed` are refused.
* **Real analysis (C47–C54).** Exact reals, `nan`/`inf` as `none`, exact quadrature, random
  outcomes as arguments with their laws stated as measures; `float32` fields of compiled structures
  are not modelled; `ZeroDivisionError` is recorded as `Err.value`.
* **Ready-made populations.** Arguments are numbers, not `None`; the flags of descriptors are a
  parameter; undeclared attribute names are ignored.
* **Objects of a configuration (C68).** `Model/Build.lean` says which heap objects make up a
  configuration of C41: a new object of a class with parameter values assigned is an arbitrary
  function of class and values, the methods of a class are arbitrary.  The name of a distribution
  is that of its class (a name given to the constructor is not written by `to_dict`).
* **Plots (C67).** An axis is the list of what was drawn on it; matplotlib, ipyvolume and IPython
  show the values of an array given to them, which are the observed ones for a
  `SimulatedVariable`.
* **Displays of synths (C69).** A text is a list of lines; how Python writes numbers, Booleans and
  lists is left out.
* **Package configuration (C70).** OmegaConf's `merge` with a structured configuration is taken as
  documented, the conversion of values is a parameter; `None`, interpolations and lists in the file
  are left out, and so is that Python 3.11 and later refuse the mutable defaults of the data
  classes.
* **Ready-made populations (C71).** The `_seed` of a distribution is read by nothing in the package
  and left out.  `from_dict` of C41 assigns every parameter; that a parameter may have been fixed
  for its whole class by assigning to `free` (C10) is considered in the constructors (C55) but not
  when reading.
* **Laws of random draws (C73).** Exact reals.  The states of the generator carry a probability
  measure `P`, and a hypothesis says that `np.random.uniform(0, h)` returns a uniform number and
  leaves a state that is independent of it and again has law `P` (`Spec.FairUniform`).  No pseudo
  random generator satisfies this exactly; `Lemmas/Stream.lean` gives one (a sequence of independent
  numbers) that does, so the hypothesis is not empty.  A loop without bound is the limit of loops
  with at most `k` turns.
* **Laws of surveys (C74, C75).** Exact reals, synths without auxiliary samplers, distance selection
  `UnitySelection`, no spatial selector, `normalize=False`.  Laws of `np.random.poisson`, `normal`
  and `uniform` are hypotheses in the same form as for C73, as is the law of the luminosities
  (`Spec.Lawful`, `Spec.Counted`).  `Props/LawSurveyExample.lean` satisfies all of them at once.  A
  Poisson process is a measure on lists of sources: a Poisson number of independent ones.
* **Luminosity classes as code (C76).** Exact reals.  A parameter read several times in one call is
  read once.  An array with an element that is not a finite number is not an array of reals: the
  model stops with `ValueError` where numpy carries on with `nan` or `inf`; this has probability
  zero.  Laws of random numbers are hypotheses as for C73.
* **Numbers of detections (C77, C78).** As C74; in addition exact quadrature and a density that is
  nowhere above its highest value on the grid.  C78 is for `ConstantSphericalDistribution` without
  measurement error.
* **Laws of auxiliary samplers (C79).** Exact reals.  `true_sampler` and `observation_sampler` of
  C62, with hypotheses on the random numbers as for C73.  SciPy's `truncnorm` never leaves its
  limits; `np.random.pareto` is one less than a Pareto number with minimum one, as documented.
* **Surveys with attached samplers (C80).** As C74, with samplers that have different names, objects
  and selectors and no secondaries.  A sampler is described by its response to an object and to
  three random reals; that the model of the code behaves so is proved for the built-in classes.
* **Subclass checks (C81).** Classes are numbers; `__mro__`, `__subclasses__()` and hooks are
  parameters; metaclasses other than `ParameterMeta` and those derived from it are `type`.
* **Version strings (C82).** What the git commands print is a parameter; `run_command`, reading the
  keywords from the file and verbose messages are left out. White space and digits are ASCII; `int`
  knows neither signs nor underscores. Error texts are shortened.
* **Classes of users (C83).** Single inheritance, as everywhere in the package. A class body is its
  registry name, its abstract and defined methods, parameters and constructor arguments. `AutoRegister`
  registers concrete classes, replaces classes of the same name and refuses empty names.
* **Trees of samplers (C84).** A sampler with everything below it is an `Act`: the chances it uses, and a function from what it sees of an object and from these chances to the values and selections of all members.  `Act.family` puts a sampler on top of its secondaries; the theorems say that the heap of samplers behaves like the act.  Samplers are told apart by number, name and selector (all different); sharing one selector between two samplers is outside the theorem.  The samplers of `popsynth/test/test_basic.py:13-57` are modelled in `Verif.Model.DemoSampler`.
* **Damaged files (C85).** The theorems start from a file that is read without error and change one link or attribute.  Damage deeper in the tree (inside a group) is not considered, nor files that are not HDF5.  `h5py` is modelled as in C38: indexing a missing link or attribute is a `KeyError`, `.keys()` of a dataset an `AttributeError`, `[()]` of a group a `TypeError`.  Simplification: `_loadfrom` does not look at the types of attributes and datasets, while the model gives a `TypeError` if one has another type than `writeto` gives it; no theorem uses these cases (a group in the place of a dataset is different: there `h5py` itself raises, C85_group_for_array and C85_group_for_optional).
* **Faulty configurations (C86).** The theorems say which exception a configuration with one fault raises.  Values outside the data model of configurations (objects that are neither numbers, strings, lists nor dictionaries) count as values that are no dictionary.  `float` and `int` of byte strings are not covered.
* **Configurations and their laws (C87).** `Verif/Model/BuiltinClasses.lean` puts the built-in classes together.  Random numbers are as in C74 to C79.  The grid maximum is assumed to bound the density and `quad` to be exact for it.  A flux that is not a finite number (redshift 0) counts as 0; this happens with probability 0.  With measurement errors, logarithms and powers are exact on positive fluxes (`Spec.FairNoise`).
* **Known distances (C88).** Random numbers are as in C74 and C75.  The distance selection is given by `Spec.withDistSel`: the survey of C74 with another selector for distances.
* **Derived arrays (C89).** numpy's `copy`, `take`, `repeat`, `sort` and `concatenate` are trusted to compute the documented values and to call `__array_finalize__` with the array itself as template, `concatenate` with `None`.
* **Exact distances (C90).** The reference is the integral over the expansion rate of a flat universe without radiation, `Spec/FlatUniverse.lean`.  Numbers are real; the package stores Om and h0 as float32.
* **YAML files of synths (C91).** A file is modelled by its document. PyYAML is trusted to load the document it dumped (with floats represented exactly, as `repr` does), to sort keys by code points, to represent the whole document before writing any of it, and to reject exactly numpy arrays, numpy numbers and other objects. Which numbers are numpy's is a parameter `py`.
* **Malmquist bias (C92).** Selected and non-selected parts of the luminosities and distances of a survey are counted on both sides of a threshold, and averaged (`Spec.average`, 0 for no objects; the mean over seeds is compared with the mean of the population times the probability of at least one object).  Setting and idealisations as in C74 and C75.
* **Weights (C93).** Means over the seeds of sums over detected objects come from the Poisson process of C75 (Campbell's formula, proved in `Lemmas/ProcessSums.lean`).
* **V/Vmax (C94).** Stated for the latent luminosities and distances of the selected objects that `draw_survey` returns.
* **Eddington bias (C95).** `Spec.Precise` says that addition, logarithms and powers of the survey are those of the real numbers on positive fluxes.
* **Fluxes of detected objects (C96).** Stated for the observed and latent fluxes of the selected and non-selected objects that `draw_survey` returns.
* **Correlation of luminosity and distance (C97).** Stated for pairs of latent distance and luminosity of the selected and of the non-selected objects that `draw_survey` returns. Logarithmic concavity survives measurement errors because the density of a normal law favours pairs of like order (`Lemmas/TotalPositivity.lean`).
* **Commands and version files (C98).** `Popen` is a function from the name of a command to what becomes of it; the environment variables, the directory and the error stream are left out. A file is the list of its lines or the exception that reading it raises.
* **Inverse probabilities of detection (C99).** The probabilities are integrals over the laws of distance, luminosity and measurement error of C74; the theorem is about the latent values of the selected objects `draw_survey` returns. The second moments rest on a formula for squares of sums over a Poisson process (`Lemmas/ProcessSquares.lean`).
* **Quantities no selection looks at (C100).** The hypothesis is about the sampler alone (`Spec.Unrelated`): the probability of being selected with values in a set is the same for all objects. The conclusion is about the variables of the population `draw_survey` returns.
* **Files at import (C101).** Model/Files.lean: programs are trees of atomic requests to the operating system, so that processes can be interleaved; `Path.mkdir(parents=True)` follows the source of Python's standard library.  Trusted: the answers of the operating system (`answer`), that a short text is written by one request, that YAML reads an empty file as no entries and the saved defaults as the defaults (`Spec.Readable`).  Left out: links, deletions by other programs, full disks, files that cannot be read or appended to, rotation of the logs.
* **Combining surveys (C102).** `Spec.Campaign` bundles all that the hypotheses of C74 speak about.  Two surveys have a generator each (`P.prod P`), and the detected objects are put one after the other; the superposition of Poisson processes is proved for lists (Lemmas/ProcessAppend.lean).  `Variant` says that one survey has k times the density of another and detects sources q times as often; it contains that the numerical integral and the maximum on the grid scale with the density.
* **Weights in surveys with samplers (C103).** `Spec.Completeness` is the defining equation of a conditional probability, for features given as a measurable function of all chances of an object (`Spec.Fate`).  `Spec.SplitsAll` relates a population to the lists of its detected and undetected objects, with a variable for every sampler.
* **Texts of log records (C104).** Model/LogText.lean has the three formats as lists of characters; `logging.Formatter` fills in the fields, records carry no exception text, and level names are those of Python's `logging` (`Level n` for other numbers).  The terminal of the specification knows only the sequences `ESC [ number m`; any other sequence ends at the first character that does not fit.  Real terminals know more (lists of numbers, titles, other character sets), and about those `C104_reset` says nothing.
* **Soft selections without logarithm (C105).** Model/SoftDraw.lean has `SoftSelection.draw` with its second argument; the Bernoulli trials and the two logistic functions are parameters (`SelEnv`), real formulas in Props/SelectionReal.lean.  Logarithms of numbers that are not positive (NaN in numpy) are not covered by the statements over the reals.
* **Histograms (C106).** A bar is the number of entries of `x.selected` or `x.non_selected` in a measurable set; bins are disjoint and need not cover everything.  Setting and simplifications are those of C84.
* **Auxiliary samplers (C62).** Number type and numerical primitives are arbitrary.

## Trusted base

* The Lean 4 kernel (v4.33.0) and Mathlib's definitions (`ℝ`, `Real.exp`, integrals, measures).
* Axioms: every theorem depends at most on `propext`, `Classical.choice` and `Quot.sound`.
  `AXIOMS.md` lists the axioms of each theorem as reported by `#print axioms`.  There are no axioms
  of our own, no `sorry`, no `native_decide`, no `bv_decide`.
* Faithfulness of the model to the Python source: the definitions were written by reading the
  source; none of the Python was run.
* The documented behaviour of what the source calls: CPython (attribute lookup, dictionaries in
  insertion order, the recursion limit), numpy (broadcasting, boolean indexing, `np.where`, the
  legacy random functions and what they refuse), scipy (`quad` calls its integrand at points it
  chooses and returns a number; `norm.rvs`, `truncnorm.rvs`), numba (compiled functions use numba's
  own random state), h5py, networkx, PyYAML, the standard `logging` and `warnings` modules.
* The specifications: `properties.jsonl` in words, and the statements of the theorems.
