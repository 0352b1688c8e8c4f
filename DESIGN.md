# DESIGN

Machine-checked model of lincc-frameworks/tdastro (package `lightcurvelynx`) in Lean 4.

## Plan per property

| id | property | model and proof plan |
|---|---|---|
| C01 | GraphState is a last-writer-wins map | Model `GraphState` with insertion-ordered dictionaries; `set` returns (error?, new state). Refine to a finite map spec over all histories (induction over op list). |
| C02 | Fixed parameters never change | Invariant over histories: value of a fixed parameter constant under any op list. |
| C03 | len(GraphState) counts the stored parameters | Invariant for successful histories (`_partial`) plus a machine-checked counterexample for a failing `set`. |
| C04 | Every stored column has exactly num_samples rows | Invariant `every column has N rows` by induction over histories incl. failing ops. |
| C05 | Splitting into samples and concatenating is the identity | `from_list (samples s)` read-back theorem, general row theorem by induction on the list of states. |
| C06 | Dictionary and table exports round-trip | Names as character lists; injectivity of joining with '.'; round trips as read-equality. |
| C07 | extract_parameters returns exactly the requested parameters | Model the loop with the results dictionary; specification by counting nodes that hold the name. |
| C08 | Membership and lookup agree | Model three-way results (value / None / KeyError); partial theorem outside the single-node-miss case, counterexample inside. |
| C09 | update merges without touching anything else | Fold of `set`; corollary of C01. |
| C10 | transpose_dict_of_list is a transpose | Direct model, elementwise spec. |
| C11 | Graph positions are a consistent numbering | Graph as adjacency of node ids with fuel-free well-founded DFS on unseen nodes; numbering theorem. |
| C12 | Sampling respects dependencies | `_sample_helper` as a recursion; invariants: equations hold, sampled-once log. |
| C13 | Caller-specified parameters win | From fixedness + C12. |
| C14 | Sampling is complete | Completeness of traversal + C04. |
| C15 | Two nodes never share storage | Model of the seen_nodes map; theorem that success implies injective names. |
| C16 | The dependency graph is exactly the dependency relation | Model of DependencyGraph and helper; edge set characterisation. Histories of direct calls (Model/DepApi) by induction on the history. |
| C17 | The gradient pytree holds exactly the differentiable constants | Model of build_pytree over node list. |
| C18 | FunctionNode wiring | Model of _build_inputs/_save_results with arbitrary function. |
| C19 | Ordered list sampler never skips, repeats or reorders | Cursor state machine; history theorem (handed out = prefix). |
| C20 | Table sampler keeps rows together | Cursor state machine over rows; random mode with arbitrary index draws. |
| C21 | Math expressions are confined to arithmetic | Expression AST; whitelist check; evaluation semantics; safety by structural induction. |
| C22 | Choice samplers only return given options | Choice as arbitrary draws; membership theorems; normalisation over rationals/reals. |
| C23 | MOC sampling stays inside the MOC | Natural-number pixel arithmetic (NESTED ids): descendant iff quotient. |
| C24 | Uniform sphere sampling has the right range and law | Reals from Mathlib: arcsin/arccos range and law. |
| C25 | Footprint rejection sampling returns covered points | Loop over an arbitrary stream of draws; partial theorem (loop finished within budget), counterexample otherwise. |
| C26 | Bandflux of a flat spectrum is that flux | Lists over a linear ordered field; trapezoid / rectangle rules; linearity, flat spectrum; counterexample for non-divisible grids. |
| C27 | Interpolated passband stays within its support | linspace + linear interpolation over an ordered field. |
| C28 | Quantile trimming removes at most the requested tail | cumulative trapezoid + searchsorted model; partial + counterexample. |
| C29 | A PassbandGroup's shared wavelength grid serves every band | Sorted-unique merge with threshold; exact when wavelengths are separated; counterexample otherwise. |
| C30 | Passband lookup is unambiguous | Dictionary model of group lookup. |
| C31 | Each observation gets the flux of its own filter and time | Scatter by mask; pointwise theorem for an arbitrary per-(time,filter) flux function. |
| C32 | Redshift transforms are consistent | Field arithmetic. |
| C33 | Effects are applied once each, in the right frame and order | Effects as arbitrary endofunctions in a log-carrying fold. |
| C34 | Wavelength extrapolation does not disturb the modelled range | Model of mask/argsort bookkeeping, arbitrary compute_sed. |
| C35 | Additive models add | Sums in an additive commutative monoid; permutation invariance. |
| C36 | Random mixture models evaluate exactly the selected object | Selection model; counterexample for minwave. |
| C37 | range_search returns exactly the matching observations | range_search with abstract spatial predicate; exact set characterisation. |
| C38 | Filtering rows keeps a consistent table | Table with pandas labels; positional vs label semantics; partial + counterexample. |
| C39 | Column mapping is transparent | Column map model. |
| C40 | Simulated lightcurves line up with the observations | Nested bookkeeping over arbitrary observation/flux functions. |
| C41 | Time windows | Direct. |
| C42 | Noise model | Reals, sqrt. |
| C43 | Magnitude and flux conversions are mutually inverse | Reals, rpow/logb. |
| C44 | Augmenting lightcurves is per-row and correct | Row model with labels; partial + counterexamples. |
| C45 | LCLIB reader recovers every curve | Line-level parser model; print/parse round trip; counterexample for metadata carry-over. |
| C46 | Grid reader inverts a grid dump | Grid model; round trip and rejection. |
| C47 | Every file written by write_numpy_data can be read back | Suffix logic; partial + counterexample. |
| C48 | Bicubic interpolation reproduces the grid and constants | Kernel as rational function over a field; partition of unity by ring; index bounds by omega. The call on arrays (cross products, masks, reshape: `Model/BicubicGrid.lean`) is shown to give the same values pair by pair. |
| C49 | Lightcurve templates: periodicity and baselines | Field model with floor-mod; partial + counterexample for magnitude baseline. |
| C50 | Template SED basis reproduces its lightcurves | Linear algebra-free: basis non-overlapping model. |
| C51 | Photometric zero points are consistent | Reals. |
| C52 | Spectral unit conversions are mutually inverse | Field arithmetic. |
| C53 | Detector footprint membership | Shape logic + abstract rotation; group action. |
| C54 | Noise-free lightcurves match the simulation grid | Pointwise theorem over arbitrary flux. |
| C55 | Damped random walk advances in time | Counterexample (current time is never advanced) + what does hold. |
| C56 | Oversampled survey tables are well formed | Length arithmetic: success iff divisibility; counterexample. |
| C57 | Inverse-transform samplers stay in the support | Piecewise-linear interpolation over ordered field; partial + counterexample below cdf[0]. |
| C58 | Periodic models repeat | Int.floor modulus over a floor field. |
| C59 | Setting a parameter again replaces its source | Setter dictionary state machine; history theorem. |
| C60 | A derived state is an ordinary state | Read-equality of `copy` over every later history; counterexample for `extract_single_sample` (no `fixed_vars`). |
| C61 | Overriding a function node's output takes effect | Sampling model of C12; counterexample (the computed value overwrites the new source), and the theorem for other parameters. |
| C62 | Editing a graph never leaves stale numbering | Numbering theorem of C11 applied after edits of the root (`_partial`); counterexample for edits of dependencies. |
| C63 | get_param and generate return what sampling recorded | `generate`/`get_param` on top of the sampling model; read-back theorem for all graphs. |
| C64 | filters argument of PassbandGroup | Constructor loop over given bands; exact membership by induction; counterexample for full name plus filter name. |
| C65 | Keyword arguments of evaluate_sed reach the model | `evaluate_sed` with an arbitrary `compute_sed` taking keyword arguments; partial + counterexample outside the wavelength limits. |
| C66 | An effect's own parameters take effect | `add_effect` over the setter dictionary; partial (fresh names) + counterexample (shared names). |
| C67 | Switching redshift on a composite | Recursive model of composites; theorem for plain models, counterexample for all composites. |
| C68 | Survey constants by filter | `_assign_constant_if_needed` over rows; partial + counterexample without a filter column. |
| C69 | Flux errors use the observation's own row | LSST/ZTF/Roman/Fake `bandflux_error_point_source` on rows; pointwise theorem for arbitrary fluxes. |
| C70 | A survey table built from constants is complete | FakeObsTable constructor; column-by-column characterisation. |
| C71 | Detection efficiencies are probabilities | `phot_eff_function`, `spec_eff_function` over ℝ: thresholds, bounds, monotonicity, midpoint. |
| C72 | Dropping empty lightcurves | Row filter; exact characterisation. |
| C73 | Eclipsing binaries dim, never brighten | Real model of the eclipse geometry; order bounds. |
| C74, C75 | BayeSN splines | Tridiagonal system over a field; uniqueness and the defining equations of the natural spline, by induction; counterexamples for the second derivative and the cell width. |
| C76–C78 | SALT2 colour law, Tripp relation, phase masks | Real polynomials (continuity, slopes, normalisation), field identities, list filters. |
| C79–C81 | AGN | Real model with logarithms and powers; bounds on the damped random walk by induction; counterexamples. |
| C82–C85 | Basic, static, galaxy and spline models | Instances of the physical model of C32/C33; pointwise theorems; counterexamples. |
| C86–C88 | Random nodes | Generators as arbitrary streams with states; numpy broadcasting contract on n-dimensional arrays; index bookkeeping by counting. |
| C89–C91, C93 | Effects | Each effect as a state transformer on flux arrays; frame and redshift bookkeeping by the general add-an-effect lemmas (`Lemmas/EffectAdd`); monotonicity and limits over the reals; draws as a stream. |
| C92 | Seeded simulation | The whole simulation with system entropy as an explicit input; independence of it refuted by white noise. |
| C94, C95 | Supernova positions, distances | `offset_by` over the reals with Mathlib's trigonometry; the specification (`Spec/Sky`) is vectors on the unit sphere; the cosmology is an arbitrary positive distance function. |
| C96 | Distance of a model | The constructor as calls of the graph-building API (C59); the sampled values by the equations of C12, for arbitrary programs before and after. |
| C97 | sncosmo wrapper | The source as a record of arbitrary functions plus a mutable parameter list; the model as a state machine over histories of sampling, evaluation, set and get; invariant by induction on the history. |
| C98 | LCLIB templates | The table reader's result (C45) turned into the lightcurve data of C49; the specification (`Spec/LclibTemplate`) is over rows and cells of the table; reuse of the curve theorems of C49. |
| C99 | Several templates | The list of curve sets with the basis for the union of their filters; the spectrum by the general mixture lemma of C50; the table loop by induction. |
| C100 | Pointing sampler | The table sampler's step lemma, then the shift and the second save; the separation on the sky from a disc of coordinate differences by the minimum of cos t + k t^2/2. |
| C101 | Parquet files | Files as values; an invariant of all tables of a class over any history of operations; reading back renames nothing. |
| C102 | Database files | The same, with pandas' index column, sqlite's case rule and drop-before-create. |
| C103 | Redback wrapper | Constructor over dictionaries; the source is an arbitrary function; recursion between compute_sed and extrapolation with fuel (every recursion limit). |
| C104 | Random surveys | The generator is an arbitrary state machine with uniform draws in [0,1); the tables are built row by row with the constructor of C39/C51. |
| C105 | Dust maps | The map is an arbitrary function of positions; the node is that of C18; the files on disk are two flags. |
| C106 | Roman tables | The loops over filters, MA numbers and passes on columns of the caller's frame; the tables of the network are arbitrary lists; then the constructor of C39. |
| C107 | `Model/BinaryStar`: Planck's law as astropy documents it, the whole evaluation of an eclipsing binary from the sampled parameters to nJy. Specification in `Spec/BinaryStar`: two spheres on an inclined circular orbit in space, the area of the sky on which each is seen as a Lebesgue measure. Proved with the lens area of `Lemmas/Lens`. False in the documented units (AU, solar radii): the code takes cm. |
| C108 | `Model/SniaRates`: the bins, the 50-point trapezoids and astropy's flat ΛCDM formulas. Specification in `Spec/SniaRates` with lengths in Mpc/h70. Proved with Mathlib's error bound of the trapezoidal rule and the smoothness of the comoving distance. |
| C109 | `Model/SniaRun`: the whole example run over an arbitrary source; generators as in C92. Observations proved from C37 for tables labelled 0, 1, 2, ...; counterexamples: filtered tables, and the generator, which reaches neither the sampling nor the noise. |
| C110 | `Model/EndToEnd.lean` joins the models of SED evaluation, passband integration, noise and `simulate_lightcurves` into one run. `Spec/EndToEnd.lean` states what one measurement is (`Measured`) in terms of table cells, the spectrum and the passband table only. `C110_measured` (every entry), `C110_redshifted` (what the spectrum of a redshifted model is), `C110_succeeds` (LSST tables; with `C40_succeeds`). |
| C111 | `Model/PassbandFiles.lean`: a disk maps locations to parsed contents (rows of numbers, VOTable, csv), `load_transmission_table` and `from_file` function by function. `Spec/PassbandFiles` says what a file holds (`Holds`). Proved as an exact characterisation of success; counterexamples: duplicate wavelengths (TypeError) and one-row text files (IndexError). |
| C112 | `download` with `pooch.retrieve` by its documented contract for `known_hash=None`. Existing/missing files by cases; the refresh and `OpSim.from_url` are refuted: pooch does not fetch an existing file again, and two URLs with one base name share a file. |
| C113 | `fromDir` over an arbitrary listing. Proved for absolute paths and distinct stems, with success; refuted for relative paths (joined twice) and for g.dat beside g.txt (listing order). |
| C114 | `fromPreset`, `fromSvo` over arbitrary disk, network and sncosmo registry. LSST and SVO proved; ZTF ignores step and trimming, Roman rejects its own documented keywords. |
| C115 | `groupInit` with parameter records; precedence stated field by field (`Loads`). Induction over the list given. |
| C116 | `Model/SeedHistory.lean`: a session of nodes and events over the node models of C86-C88 and C57. Induction over histories: a node's results equal the replay of its own calls; compared for pairs of sessions. `DistributionSampler` (explicit generators use up its own draws) and bilby nodes (one generator for the process) are the counterexamples. |
| C117 | `Props/Batches`: from the characterisation of lightcurves in C40 (rows = the matches of the object, blocks threaded through the generator) uniqueness of the blocks gives that a joint simulation is the concatenation of its batches and that noise-free columns depend on the object alone; corollaries for the end-to-end simulation of C110, with a concrete run. |
| C118 | The graph of `construct_snia_source` is built by the modelled constructors and reduced by the kernel to its 14 nodes (tactic `krfl`: `Eq.refl`, checked by the kernel only); the sampling theorems C11, C12, C14, C15 and C86 then give the equations between the sampled parameters, and success for every number of samples. |
| C119 | `Model/FullRun.lean` composes sampling (C11-C15), the object columns and the simulation (C110) into one function; the theorems state the table and the lightcurves in terms of the values a reader gets from the sampled state (`Spec/FullRun.lean`), the clash of column names is a counterexample, and success is proved for sound surveys. |
| C120 | `Model/GraphEq.lean` models `__eq__` with `np.allclose` as a function that may raise; equality is characterised through the reads of the two states by the invariants of reachable states (C01-C04); a None parameter and the asymmetric tolerance are counterexamples. |
| C121 | Files are a map from paths to tables (assumption: an ECSV file gives back the table written to it); the table round trip of C06 is extended by the invariant that loading fixes nothing and leaves no empty node. |
| C122 | Model/SniaSurvey: the wrapper of C97 as the SED model at the root of the graph of C118. The evaluation only ever asks the source for wavelengths in its range (`extrapolated_congr`), so C97_value gives a pointwise model; C110_redshifted gives the observed spectrum; C119_lightcurves and C119_succeeds with the relations of C118 give the whole run. |
| C123 | Model/Salt2Files: `from_grid_file` and the constructor over GridIO, Bicubic and the colour-law reader; `compute_sed` as an SED model. C46_inverts, C48 (incl. the new C48_bilinear) and C77 give the spectrum, C110_redshifted the observed one. Spec/Salt2Files says what interpolating a table means. |
| C124 | Model/StaticFiles: `from_file` and `from_synphot` over GridIO and the static model. C47 gives the round trip, C83 the evaluation. `.dat` files and blueshifted synphot models are counterexamples. |
| C125 | Spec/Scaled: an effect that scales, and the product over the history, by induction with C33/C34; dust, lens and dimming are instances; the whole survey through C119, with a concrete run built by Props/ConstGraph (a one-node graph of constants). |
| C126 | Spec/Composite: what each kind of model emits, as an inductive relation; induction over it with C31, C35, C36 gives the fluxes; Model/CompositeRun is the simulation of any model, the sampling includes the objects of a composite; the survey through C110_fluxes and C119_fluxes. Objects of objects are never sampled (counterexample). |
| C127 | `Model/ZtfPersist` (reading ZTF tables) on `Model/Persist`, `Model/RandomSurvey` | the class derives zero points by adding one column (`SoundClass`), so the round trips of C101/C102 apply when no dates are converted; the two disagreements are theorems about every table made from dates |
| C128 | `Model/GraphHeap`: the same functions with arrays as objects in a heap (1-d arrays, views, lists), and programs as lists of statements; `Spec/GraphHeap`: what is shown | refinement: what is shown behaves as `Model/GraphState` (so C01 to C10 hold of it); separation: a set of objects out of reach of what a program names stays out of reach and unchanged (`step_kept`, by cases over 14 statements; `run_kept`, by induction over the program); copies are fresh |
| C129 | `Model/GraphHeap` (`GivenValueList` keeps a view, hands out views) | the same separation, and `grows_run` for programs without writes; programs in which the sharing shows are the counterexample |
| C130 | `Model/PassbandShare` (passband cells, groups holding references, a step function over constructions, `add_passband`, `process_transmission_tables`, `process_transmission_table`) | refinement: what a group shows, read through its references, evolves as the `PassbandGroup` of C29/C30 (induction over members; references are distinct because names are); invariant over every reachable world; frame theorem; up-to-date histories give the C29 conclusion; counterexample with two groups of one passband |
| C131 | `Model/TemplateShare` (the caller's dictionaries as cells, light curves holding one or their own) | refinement to `lcInit` at construction, frame lemma per operation, induction over histories; a dictionary given to two light curves in magnitudes is the counterexample |
| C132 | the existing models of the simulation, the survey tables, the SED models and the effects; Spec/Translate defines the moved table, state and result | every step of the simulation on moved inputs is the moved step on the original ones (Lemmas/Translate); each model and effect is shown invariant, an effect can be added to any such model |
| C133 | no new model code: two runs of `simulateWith` (C110) on related survey tables (Spec/Narrow: perfectCols, ObservationsOf, between, fromFirst, PointsWithin, OnDetector) | both observation lists are sorted and characterised by C110; a row map carries rows, noise inputs and matches from one table to the other; sorted lists with the same members are equal; masks commute with columns |
| C134 | Model/SamplerShare: arrays of the caller as cells of a world, samplers holding references or arrays of their own, `asarray`, in-place division | frame lemma per operation, division by the sum is idempotent, induction over histories; counterexamples for the caller's array and for later assignments |
| C135 | Model/EndToEnd.lean, Spec/Rearrange.lean | two runs; the observations of an object are determined by its state and the surveys, its entries by OneFlux and the noise formulas |
| C136 | Model/EndToEnd.lean, Spec/Rearrange.lean (visits) | the lightcurve is a filter and map of the list of visits, so a permutation of visits permutes it; permuted surveys, permuted rows, joins and splits are permutations of visits |
| C137 | `Model/Direct.lean`: `evaluate_sed` / `evaluate_bandfluxes` of a node of a graph on a `GraphState` or on none | the loop over the samples is related to `extract_single_sample`; values by C32, integrals by C31; counterexample: keywords without a state (TypeError) |
| C138 | the models of `range_search`, `DetectorFootprint` and `simulate_lightcurves` (no new definitions) | unit vectors are periodic in RA; the sky offset frame depends only on RA differences; C37 for the row numbers; congruence of the simulation loop |
| C139 | `Model/MocChain.lean`: `build_moc` and `ApproximateMOCSampler` (`__init__`, `from_file`, `compute`); HEALPix, mocpy and cdshealpix as a record of functions with the contract `Spec/MocChain.lean: Contract` (discs are covered, pixels have bounded size, a pixel contains its centre) | triangle inequality on the sphere; arithmetic of nested pixel numbers at two orders; a toy pixelisation meets the contract |
| C140 | the models of C110; `Spec/Brighter.lean` says what fainter and normalised mean | C110 for both runs; the lists of observations agree by their characterisation; trapezoid sums are monotone for non-negative transmissions, the variance is monotone in the flux |
| C141 | Whole run (C119) followed by `from_dict`/`from_list` (C05, C06) and direct requests (C137) | No node is recorded without parameters (invariant over every write of sampling), so `from_dict` of `to_dict` restores the stored dictionaries exactly; row-wise evaluation (C31) for single entries. |
| C142 | Model/Analyse: the returned table as the post-processing sees it (simulate.py 224-227), with FullRun and PostProcess | C119 gives the cells of every object's lightcurve, C44 the grades by flat position; the flat position of entry i of object k is the sum of the earlier counts plus i; counterexample for simulate, drop, augment |
| C143 | Model/Iterate: a state with the generators made from it (graph_state.py 66-76) | induction on the history: generator i stands at the number of times it was advanced, at most num_samples; counterexample: next(state) |
| C144 | Model/AskAny: `evaluate_bandfluxes` of any node for a given state or none, over Model/CompositeRun's models | one-by-one treatment is closed under effects, sums and random choices; the answer for a batch is pointwise that of singletons (per-sample loop of C137); a recorded flux by the per-observation account of C110 with that predicate, restored state by C141; instance: C126's pair |
| C145 | Model/CompositeRun, Model/AskAny | the recorded flux is asked for again (C144), the sum of C35 is unfolded in the restored state, and each object is asked alone in that state; instance: C126's pair |
| C146 | Model/BayesnSed: `compute_sed` over the splines of Model/Bayesn, the extinction law of Model/EffectLib and `flam_to_fnu` | closed form of the spectrum for well-formed knots; scaling, dust and row independence read off it; counterexamples: the law's own R(V) is used instead of `Rv` |
| C147 | `Model/RandomRun.lean`: `simulateFull` of a composite model; strings among the sampled values stored as numbers and read back before evaluation | C119's flux theorem at the state read back, C126's `Emits` for random models; the selected name determines the object |
| C148 | `Model/CoverageRun.lean`: the rejection loop asking the survey table itself, as a function node of the graph | loop invariant with C37's `is_observed`; C12's equations and single call; C119's observations |
| C149 | `Model/PointingRun.lean`: rows drawn, columns at those rows, two draws of the offset, as a function node of the graph; one object with a positive radius (arrays of length one, `C100_single_counterexample`) is outside the run model | a disc in the (RA, dec) plane lies in the circle on the sky (C100), C12 equations and single call, C119 observations |
| C150 | no new model: `Model/ObsTable.lean`, `Model/Footprint.lean` and `Model/FullRun.lean` put together (the footprint of the table is `containsAt`) | separation at most its tangent, the length of the tangent-plane offset; C37, C53, C119 |

Statuses are in `MANIFEST.json`. A property is `partial` when the code does not satisfy the property as a user would expect it:
the `_partial` theorem then says where it holds, and a `_counterexample` theorem proves, about the same model, that it fails
elsewhere. Nothing is `partial` because a proof was not finished unless the note says so.

## How the development is organised

* `lean/Verif/Base`: Python-like values, errors, insertion-ordered dictionaries, numpy primitives (`interp`, `trapezoid`,
  `searchsorted`, `linspace`, …) on lists over an ordered field.
* `lean/Verif/Model`: the code, function by function; each definition cites file and lines.
* `lean/Verif/Spec`: the vocabulary in which the properties are stated, independent of the models.
* `lean/Verif/Lemmas`: auxiliary proofs.
* `lean/Verif/Props`: the theorems `Cnn_…`; every group is followed by an `example` with a concrete case meeting the hypotheses.
* `tools/props.py` writes `properties.jsonl`, `tools/manifest.py` writes `Verif.lean` and `MANIFEST.json` from the theorem names,
  `tools/axioms.sh` prints the axioms of every claimed theorem. `seeded/LOG.jsonl` records the wrong programs tried.

## Trusted base

* The Lean 4.33.0 kernel. The claimed theorems depend on at most `propext`, `Classical.choice` and `Quot.sound`
  (`tools/axioms.sh`); no axioms are added, and nothing rests on compiled code.
* Mathlib is used as a library of proved statements; it is checked by the same kernel.
* That the hand-written model says what the Python source does. There is no mechanical link between the two.
* The contracts of the libraries, as written into the model (they are definitions, not axioms):
  * numbers: elements of a linearly ordered field, or ℝ where roots, logarithms, powers or trigonometry occur. There is no rounding,
    overflow, infinity or signed zero. Where NaN matters (missing metadata, magnitudes of negative fluxes, dropped rows) a missing value
    is `none`.
  * Python: dictionaries keep insertion order; attribute and item access, `for` loops, exceptions. A call that raises may have changed
    state: such functions return the error together with the state. `ast.parse` is taken as given (expressions are trees), and
    evaluation is by a world of names.
  * numpy: `interp`, `trapezoid`, `cumulative_trapezoid`, `searchsorted`, `unique`, `argsort` (stable), `linspace`, `arange`,
    `allclose` (with its absolute and relative tolerance), `where`, broadcasting (axes from the last one), `vectorize` (its result type is
    that of the first call, and it calls once more), `linalg.solve` (the solution of a regular system), `savetxt`/`loadtxt`
    (a single row or column loses an axis), in-place division of integer arrays raises.
  * random generators: an arbitrary stream of draws; `uniform` in `[0, 1)`, integers in range. Nothing is assumed of their
    distribution; laws are stated as inverse-transform statements for a uniform draw.
  * pandas/nested-pandas: a table is a list of rows with labels; `.iloc` is by position, `.loc`/`[]` by label; filtering keeps labels.
  * scipy: `KDTree.query_ball_point` returns the points within the given Euclidean distance; `quad` is the integral; splines of
    `RectBivariateSpline`/`FITPACK` need sorted grids and are otherwise arbitrary functions; `NumericalInversePolynomial` is an arbitrary
    function of the draw.
  * astropy: units (as a dimension vector with a scale), cosmological distances (arbitrary functions of the redshift), `SkyCoord`
    separations (the spherical formula), TAN projection with `SkyOffsetFrame`, regions, `Table` with metadata.
  * mocpy/cdshealpix: nested pixel numbers. bilby, pzflow, sncosmo, redback, dust maps: arbitrary functions of their arguments.

## What is modelled

| file in `src/lightcurvelynx` | modelled | not modelled |
|---|---|---|
| `graph_state.py` | all of `GraphState` and `transpose_dict_of_list`; saving to file only as the table export | the text of `__str__`, file formats |
| `base_models.py` | parameter sources, `ParameterizedNode`, `FunctionNode`, numbering, sampling, `get_param`, `generate`, pytree, dependency graph | `jax` gradients themselves, display of graphs |
| `math_nodes/*` | basic math node, numpy/scipy/bilby random nodes, given-value samplers, table sampler, distribution sampler, RA/Dec samplers | scipy's numerical inversion, `jax` backend's arithmetic |
| `astro_utils/passbands.py` | table processing, trimming, normalisation, bandfluxes, groups and lookup, loading from files, directories, presets and SVO | the parsers of the file formats (`np.loadtxt`, VOTable), plotting |
| `utils/data_download.py`, `OpSim.from_url` | whole, over a disk and a network | `pooch` (by contract), time-outs |
| `astro_utils/{mag_flux,noise_model,zeropoint,obs_utils,redshift,unit_utils,detector_footprint,salt2_color_law,agn_utils,snia_utils,pzflow_node,dustmap,black_body}.py` | all functions except those named | plots |
| `models/physical_model.py`, `multi_object_model.py` | evaluation, frames, effects, extrapolation, composites, time masks | jax gradients |
| `models/{basic_models,static_sed_model,galaxy_models,spline_model,periodic_model,periodic_variable_star,salt2_jax,bayesn,agn,lightcurve_template_model,sncosmo_models,redback_models}.py` | their `compute_sed`/`compute_bandflux`, constructors and masks | readers of third-party file formats other than LCLIB |
| `effects/*` | all four effects and the effect interface; arbitrary effects otherwise | the dust laws of `dust_extinction` (an arbitrary A(w)/A(V) with a range; `extinguish` is 10^(-0.4 A(w)/A(V) Rv Ebv), `ValueError` outside the range), VBMicrolensing (`PSPLLightCurve` is the Paczynski formula), the entropy of `np.random.default_rng()` (an explicit input) |
| `obstable/*` | construction, column maps, filtering, range search, constants, error models, oversampling, footprints | the SQL language and file formats (files are values), MOC building beyond pixel sets |
| `simulate.py`, `example_runs/simulate_snia.py` | whole runs from the graph to the results table for SED, bandflux and composite models (C119, C124, C126), windows, saved and parameter columns, noise-free lightcurves, the SNIa example | names as parameter values in a whole run (the choice of a random composite is modelled per state: C36, C126), the loading of the example's passbands |
| `utils/*` | bicubic interpolation, grid and numpy IO, LCLIB reading, post processing, wave extrapolation, download cache (C112) | plotting, the network |

## Where the code disagrees with the property

Each entry is a theorem; the list is also the list of suspected bugs for the maintainers.

* `C03_len_counterexample`: C03 fails after a raising call: a length mismatch on a new parameter is counted although nothing is stored.
* `C05_roundtrip_counterexample`: C05 fails for array-valued parameters: the samples of a two-sample state with a two-component parameter cannot be concatenated again.
* `C08_lookup_counterexample`: C08 fails for a short key missing from the only stored node: no `KeyError`, `None` is returned; and `in` raises `KeyError` (instead of being `False`) for a key with two dots.
* `C100_integer_counterexample`: C100 is false of integer columns: with two samples the second step raises `TypeError`, and the state already holds the pointings.
* `C100_pole_counterexample`: A generator whose first draws (the distances) and second draws (the angles) are always one quarter: the offset is half the radius towards growing declination, so a pointing at the pole is moved beyond it.
* `C100_single_counterexample`: C100 is false of one sample: the position is stored as an array of one number, while the time is a number.
* `C101_clash_counterexample`: C101 fails for a class with its own column map, when a column with an original name was added: the file is written, but cannot be read.
* `C101_footprint_counterexample`: C101 fails for the detector footprint: it is not saved, and the table that is read back finds observations the original one excludes.
* `C101_names_counterexample`: C101 fails for the original names of a table of the base class with a column map: the map is not saved.
* `C102_case_counterexample`: C102 fails for column names that differ in case only: the table is fine, writing it raises `ValueError`.
* `C102_cycles_counterexample`: C102 fails for repeated cycles, for every table: each cycle adds a column for the index, and the third time the table is written this raises `ValueError` and, since the caller asked to overwrite, the stored table is gone.
* `C102_survey_counterexample`: C102 fails for the survey values: they are not saved. A table with a radius, read back, has none, and a search by the survey's radius raises.
* `C103_outside_counterexample`: **C103, where the code falls short.** A wavelength outside the range of the redback source is not extrapolated: `compute_sed` and `compute_sed_with_extrapolation` call each other with the same arguments until Python's recursion limit, whatever it is, is reached (the model's own range is 0 to infinity, so nothing is ever trimmed).
* `C103_prior_counterexample`: **C103, where the code falls short.** A name that is an output of the priors and also a keyword argument is accepted, and the keyword argument has no effect: the parameter is set from the priors.
* `C105_sfd_counterexample`: **C105, where the code falls short.** The files an earlier `SFDMap` downloaded are not found again: they lie in `sfddata-master`, which is not looked at, and without the archive the construction fails.
* `C106_caller_counterexample`: **C106, where the code falls short.** The caller's frame is changed: its own observation times are overwritten with those of the passes.
* `C106_parquet_counterexample`: **C106, where the code falls short.** Every Roman table can be written to a parquet file, and none of these files can be read as a Roman table: AttributeError, since the column `BANDPASS` has been renamed.
* `C106_path_counterexample`: **C106, where the code falls short.** A path to an MA table can be given, but then no table can be made: for every frame the constructor raises UnboundLocalError.
* `C107_units_counterexample`: **C107 is false in the documented units.** The documentation gives the semiaxis in astronomical units and the radii in solar radii; the code takes all three in cm. For every binary given in the documented units, the flux the code computes at quadrature (where nothing is hidden) is too small by a factor of at least 4.8e21, the square of the solar radius in cm.
* `C109_filtered_counterexample`: **C109 fails on a filtered table**: after keeping only the second row, the row is found (as number 0), but its time is looked up under the label 0, which is gone.
* `C109_generator_counterexample`: **C109 fails for the generator** `rng_info`: for every model whose flux is not random, the generator given has no influence on any result; the parameters are sampled and the noise is drawn without it.
* `C109_seed_counterexample`: **C109 fails for reproducibility**: with the same generator given twice, the noise of the example differs, for two different states of the entropy of the system.
* `C111_duplicate_counterexample`: C111 fails for repeated wavelengths, which the documentation says are averaged: every file with increasing wavelengths some of which are equal raises TypeError.
* `C111_one_row_counterexample`: C111 fails for an ASCII file with one row: IndexError instead of the documented exception or a table.
* `C112_force_counterexample`: C112 fails for `force_download=True`: an existing file is never downloaded again, whatever the network has now.
* `C112_same_name_counterexample`: C112 fails for two URLs that end in the same file name: after the first was used, the second one gives the first one's data, even if the download is forced.
* `C113_relative_counterexample`: C113 fails for every relative path of a directory (other than the current one): the directory's path is put before each file's path a second time, and reading fails although the files are there.
* `C113_same_stem_counterexample`: C113 fails for two files with one stem (such as g.dat and g.txt): which of them is in the group depends on the order in which the directory is listed.
* `C114_roman_counterexample`: C114 fails for the Roman preset with `units="micron"` (the units it says it expects) or with `force_download` of any value: it raises, for every disk and network.
* `C114_ztf_counterexample`: C114 fails for the ZTF preset with a step or trimming: whatever is asked for is ignored.
* `C116_bilby_counterexample`: C116 fails for bilby nodes: sampling another bilby node in between, or making another one with a seed, changes the values of the seeded node.
* `C116_tabulated_counterexample`: C116 fails for `DistributionSampler`: a call with an explicit generator uses up the node's own draws, so that the next value is another one.
* `C119_clash_counterexample`: C119, what is missing from the general statement: two different parameters whose names differ only in where the dot is, such as `gal_1.z` of a node `gal_1` and `gal.1_z` of a node `gal`, are written to the same column; whatever the run, that column holds the parameter requested last, and the other one is in no column of its own.
* `C120_asymmetric_counterexample`: C120: equality is not symmetric. There are two states with `s == t` but not `t == s` (the tolerance is relative to the right-hand side).
* `C120_none_counterexample`: C120 fails for states that hold None: comparing a state of a model whose `x` is None with its own copy raises TypeError.
* `C121_fixed_counterexample`: C121 fails for fixed parameters: after saving and reading back a state with a fixed parameter, the parameter is not fixed any more (a write that the original state ignores changes it) and the states are not equal.
* `C121_single_counterexample`: C121 fails for one sample: a state of one number cannot be saved.
* `C124_blueshift_counterexample`: C124 fails for blueshifted synphot models: one that is not in its rest frame is accepted if its redshift is negative.
* `C124_dat_counterexample`: C124 fails for `.dat` files: what `write_numpy_data` writes there `from_file` cannot read.
* `C126_nested_counterexample`: C126, the code disagrees: sampling a composite samples its objects but not the objects of its objects. The model of a composite of a composite of a bandflux model with a dimming effect samples without an error, and then raises an error whenever it is evaluated in a sampled state, whatever the times and filters, although every parameter of every object is set.
* `C127_dates_counterexample`: C127, the code disagrees: a ZTF table made from exposures with dates (`obsdate`, as in the survey's own data and in `create_random_ztf_obs_data`) is written without an error, but no such file can ever be read: the constructor makes a column `obsmjd` from the dates once more and finds `time` taken. This holds for every such table, parquet file, database and way of reading dates.
* `C127_default_counterexample`: C127, the code disagrees: `write_db` writes the table `observations`, `ZTFObsTable.from_db` reads `exposures`: no table written by default into a new file is read by default.
* `C128_single_counterexample`: C128, the code disagrees: the copy of a state of one sample is not deep. For every such state with an array in it (several numbers for the one sample), a program that only gets the array from the original state and writes into it changes what the copy shows.
* `C128_single_force_counterexample`: C128, the code disagrees: in a state of one sample `force_copy` is ignored, for every array.
* `C129_linked_counterexample`: C129, the code disagrees. A node made from an array is linked to it: a write into the array changes the values the node gives. And sampling several values links the state to the node, however it was made: here a node made from a list gives 1, 2, 3; three samples are taken and doubled in place in the state; after a reset the node gives 2, 4, 6.
* `C130_shared_counterexample`: C130 is false for passbands reprocessed elsewhere: two groups are built from one passband on 100, 150 and 300 Å. After `process_transmission_tables(delta_wave=100)` on the second, the passband is on 100, 200 and 300 Å; the first still has its old grid, so the fluxes of the spectrum `f(w) = w` on that grid are weighted as if they were taken at 100, 200 and 300 Å, and its band flux is wrong, with no error. The group built now from the same passband has it right.
* `C131_shared_counterexample`: **C131** is false for a dictionary given to two light curves in magnitudes: the caller's baseline of magnitude `m` is replaced by its flux when the first is built; building the second, from the same dictionary, converts it again, and from then on both have the flux of the flux of `m` as their baseline. For `m = 31.4` the first gives 1 nJy before and `10^12.16` nJy after.
* `C134_weights_counterexample`: **C134** fails for the weights: building a sampler with the caller's weights 2 and 6 turns the caller's array into 1/4 and 3/4.
* `C134_write_counterexample`: **C134** fails when the caller goes on using its arrays: after an assignment to the weights array every `compute` of the sampler raises `ValueError`; after an assignment to the values array it returns the new value.
* `C137_keywords_counterexample`: C137 does not hold as stated (keywords): for every model and graph, a call of evaluate_sed with a further keyword and without a state raises TypeError, whatever the keyword, though the documentation has further keywords handed to the computation of the spectrum.
* `C142_dropped_counterexample`: C142 is false for the documented sequence simulate, drop, augment: take any table labelled 0, 1, 2, … whose last object was observed and one of whose objects was not, and whose t0 are non-zero. `results_drop_empty` succeeds, and `results_augment_lightcurves` of what is left raises IndexError: the labels of the rows are used as positions.
* `C143_next_counterexample`: C143 is false of `next(state)`: whatever happened before, it gives sample 0 of the state, so a program that steps through a state with `next` gets sample 0 for ever and no StopIteration.
* `C146_av_counterexample`: C146 fails for other values of `Rv`: the law's own ratio is used, so where the law gives the extinction of the V band (A(w)/A(V) = 1), a supernova with one magnitude of extinction, `Av = 1`, is dimmed by `R_V / Rv` magnitudes (1.55 for F99 and Rv = 2), not by one.
* `C146_rv_counterexample`: C146: nor does `Rv` change the wavelength dependence of the dust: two supernovae that differ only in `Av` and `Rv`, with the same quotient, have the same spectra.
* `C20_single_column_counterexample`: C20 is false of one-column tables: the list of columns is taken for the value. With one sample a length-one list is stored instead of the entry; with two or more samples the call raises.
* `C21_called_input_counterexample`: **C21**: an input named like a function is called: with the inputs `sin` and `x`, the accepted `sin(x)` calls whatever object the input holds.
* `C21_numpy_max_counterexample`: **C21**: with numpy, `max(x, 0)` is not the larger of `x` and 0: at -1 it is -1, because the second argument of `np.max` is an axis.
* `C21_shadowed_module_counterexample`: **C21**: an input named `np` hides the module: the accepted `fabs(np)` is an attribute access to the value of the input and fails, though its meaning is the absolute value.
* `C22_integer_weights_counterexample`: C22 is false of integer weights: a valid list of integer weights is rejected when the sampler is built (the in-place division of an integer array raises), whatever the options.
* `C25_uncovered_counterexample`: C25 is false when the iterations run out: with a footprint the draws never hit, every `max_iterations` returns normally with an uncovered point.
* `C26_flat_counterexample`: C26 is false when `delta_wave` does not divide the table's range: the table of transmission 1 at wavelengths 1 and 4 with `delta_wave = 2` is put on one step of 3, and the flat spectrum of value 1 has bandflux 2/3.
* `C28_upper_tail_counterexample`: C28 is false for the upper tail of *every* physical table: whatever the table and quantile, the kept rows end strictly before the last row and the area dropped above them is strictly more than the requested fraction `q`.
* `C29_close_waves_counterexample`: C29 is false for distinct wavelengths closer than the threshold: in the group of a band on `{1, 2}` and a band on `{2.000001, 3}` the second band is given the flux at 3 twice.
* `C29_index_error_counterexample`: C29, worse: when a band's last wavelengths are merged away, its bandflux raises IndexError.
* `C30_ambiguous_counterexample`: C30 is false for ambiguous filter names: in a group of two surveys' bands of one filter, looking the filter up raises KeyError while the bandflux under that filter name is silently that of the first survey's band. Here with full agreement of the hypotheses of `C29_shared_grid_partial`.
* `C36_minwave_counterexample`: C36 is false for minwave and maxwave: they raise TypeError in every state.
* `C36_same_name_counterexample`: C36 is false for objects of one class without labels: their names are equal when the composite is built, so the first of two such objects is never evaluated, in any state: replacing it by any other SED object of that name changes nothing.
* `C37_is_observed_counterexample`: C37, is_observed, fails for a scalar right ascension with a declination array of one element: the answer is always True, here for a point on the other side of the sky.
* `C37_large_radius_counterexample`: C37 fails for a radius above 180 degrees: the search radius shrinks again. Every point is within 360 degrees of every pointing, but the search at (90, 0) with radius 360 does not find the pointing (0, 0).
* `C37_overwrite_counterexample`: C37 fails when a pointing column is overwritten: the search still uses the old pointings. The pointing is moved from (0, 0) to (180, 0); the search at (0, 0) still finds it.
* `C37_scalar_bounds_counterexample`: C37 fails for scalar time bounds (which the documentation of the error message allows) as soon as there is more than one query point: they raise ValueError.
* `C38_empty_list_counterexample`: C38 fails for an empty list of rows: instead of an empty table it raises IndexError.
* `C38_filters_counterexample`: C38 fails for the attribute `filters`: it still lists the filters of the removed rows, while a table built from the remaining row lists only r.
* `C38_get_observations_counterexample`: C38 fails for get_observations: after keeping only the second row, range_search finds that row (number 0), but get_observations looks for the label 0, which is gone, and raises KeyError.
* `C39_add_counterexample`: C39 fails for add_column under the original name of a mapped column: `mjd` is in the table, yet adding a column `mjd` raises nothing and replaces the data found under that name.
* `C39_two_names_counterexample`: C39 fails when one column is given two standard names: only the last one is used, so here the required name `time` is missing and the constructor raises KeyError.
* `C40_standard_column_counterexample`: C40 fails when a standard column is also listed among the columns to save: its entries are recorded twice and the simulation raises ValueError.
* `C40_unobserved_saved_column_counterexample`: C40 fails for an object outside every pointing when a table column is to be saved: the simulation raises IndexError instead of giving the object an empty lightcurve. The same request without saved columns gives an empty lightcurve.
* `C41_missing_t0_counterexample`: C41 fails for a model without t0 when several objects are sampled: for one object a missing t0 means no window, but for two or more the same request raises TypeError.
* `C42_callable_readout_counterexample`: C42 fails for a readout noise given as a function: the documented noise per pixel and exposure is not multiplied by the number of pixels and of exposures, so the error does not grow with them.
* `C42_negative_flux_counterexample`: C42 fails for negative fluxes: in every observation there are fluxes, all negative, for which the error is not a number.
* `C44_detection_counterexample`: C44 fails for the detection flag of an entry without a positive flux: it is missing, not false (while `augment_single_lightcurve` gives false, `C44_single`).
* `C44_filtered_counterexample`: C44 fails after selecting rows: with the second row of a two-row result (label 1), augmenting raises IndexError, because the label is used as a position.
* `C44_reordered_counterexample`: C44 fails after sorting rows: the rows labelled 1 and 0 get each other's t0.
* `C44_zero_t0_counterexample`: C44 fails for a t0 of zero: no entry of any row gets a relative time.
* `C45_carry_over_counterexample`: C45 fails for the metadata: the second table has an entry that was given for the first event only.
* `C45_malformed_counterexample`: C45 fails for malformed files: an event that does not end is dropped without an error, one that ends twice is returned twice, and rows between events are dropped.
* `C46_unvalidated_counterexample`: C46 fails without validation (the default): the rows of a full grid in another order are accepted, and the values end up at the wrong grid points.
* `C47_dat_counterexample`: C47 fails for `.dat` files: they are written but cannot be read.
* `C47_shape_counterexample`: C47 fails for text files with a single row, column or entry: the array read has another shape.
* `C48_spacing_counterexample`: C48 fails on axes with small irregular steps, which are taken for regular: the value returned at a grid point is not the stored one, and a constant grid gives another value.
* `C49_baseline_reuse_counterexample`: **C49**: with magnitudes the caller's dictionary is converted in place, so that the next template made with it has another baseline: two equal constructions in a row give different templates.
* `C49_magnitude_baseline_counterexample`: **C49**: magnitudes without a baseline: outside of the rows the flux is the flux of magnitude 0, not 0.
* `C49_times_counterexample`: **C49**: periodic curves that are not sampled at the same times are accepted, because the comparison of times is relative to their size: at a date of 60000 days half a day is within the tolerance. Both curves have the constant flux 5, but during the first half of the period the flux in `r` is 0.
* `C50_leak_counterexample`: C50 is false through the spectrum when a filter lets through, below the significance threshold, a wavelength of another: the template's value in `b` is 0 and the bandflux of the model's spectrum in `b` is positive.
* `C51_empty_counterexample`: C51 fails for a table without rows: computing its zero points raises ValueError.
* `C51_integer_entry_counterexample`: C51 fails when the first entry used is a Python int: all other zero points are then truncated to integers.
* `C51_ztf_constants_counterexample`: C51 fails for a ZTF table with its own camera values: the zero point is computed from fixed constants (gain 6.2, readout noise 8), so that with other values of the survey the limiting magnitude is no longer a five sigma detection. Here for a table declared free of readout noise and of sky counts.
* `C54_integer_phases_counterexample`: C54 fails for integer phases (such as -50, 50, 2): with a float t0 and no positive redshift the call raises TypeError, though the same phases given as floats work.
* `C54_times_filter_counterexample`: C54 fails for a passband called "times": the column of times then holds fluxes.
* `C55_elapsed_counterexample`: C55 fails: the second sample is not the decay of the first over the time between them.
* `C55_increasing_counterexample`: C55 fails: times that decrease are accepted as long as they come after the start.
* `C56_divisibility_counterexample`: **C56**: the time range `[0, 3)` with step 1 holds three times, enough for the two bands, but there is no table: the bands are repeated a whole number of times, which leaves two rows of filters for three times.
* `C57_first_share_counterexample`: C57 is false for draws below the first point's share, which occur whenever the first tabulated density is not zero: for every accepted table with a positive first density there is a draw in `[0, 1)` for which sampling raises.
* `C60_extracted_set_counterexample`: C60 fails: after extracting a single sample, setting a parameter of an existing node raises `KeyError` (the extracted state has no `fixed_vars` entry for it), while the same call on the original state succeeds.
* `C61_overridden_output_counterexample`: C61 counterexample. `set_parameter` accepts a new constant for one output of a two-output function node and reports no error, but sampling returns what the function computed.
* `C62_stale_numbering_counterexample`: C62 counterexample. A graph is numbered; then two unlabelled function nodes are attached to a dependency of the root. Every edit succeeds, sampling the root raises (the new nodes were never numbered and share a name), while numbering the graph again would give all nodes different names.
* `C64_both_names_counterexample`: C64 is false in one direction: asking for a band by its full name and by its filter name raises ValueError ("not found") although both name a given band.
* `C65_dropped_counterexample`: C65 fails once one requested wavelength (in the frame of the source) is outside the model's limits: the whole result, also at the wavelengths inside, is then the same whatever keyword arguments are given.
* `C66_ignored_counterexample`: C66 fails: adding a constant dimming by `f` and then one by `g` multiplies the flux by `f * f`, not by `f * g`, whatever `g` is.
* `C67_composite_counterexample`: C67 is false for composites: whenever set_apply_redshift on a composite returns, nothing has changed; and if some object is a bandflux model it raises instead.
* `C68_no_filter_counterexample`: C68 fails for a table without a filter column: a constant that is a single positive number becomes a column of zeros.
* `C75_axes_counterexample`: C75: the same on the grid of the template: the curvature used at a grid point along each axis is half that of the natural spline through the tabulated fluxes of its column, or of its row.
* `C75_grid_counterexample`: C75 fails in general: on a wavelength axis of step two, with a flux peak in the middle, the template does not return the tabulated flux at a grid point.
* `C75_half_curvature_counterexample`: C75: the numbers used as second derivatives are exactly half the second derivatives of the natural spline through the data, at every knot.
* `C79_reference_wavelength_counterexample`: C79 fails: at 4000 angstroms neither the structure function nor the time scale is the 4000 angstrom parameter, whatever its value other than zero: the first is smaller than a half of it, the second is larger by more than a third.
* `C80_dimming_counterexample`: C80 fails: the variability should scatter the flux on both sides of the average of the disk. The random numbers lie between 0 and 1, so the object is never brighter than the average: not for any parameters, times after `t0`, wavelengths or seed.
* `C80_repeat_counterexample`: C80 fails: the flux should be a function of the sampled parameters, the times and the wavelengths, as it is for the other models. It also depends on how often the object was evaluated before: with the same parameters, time and wavelength a second evaluation gives another flux.
* `C81_law_counterexample`: C81 fails: the distribution should be a broken power law, `xi / ((r / br) ^ d1 + (r / br) ^ d2)`, that falls above the break. The code multiplies by the sum instead of dividing by it, so for a positive upper slope the value at `n` times the break is at least `n ^ d2` times the normalisation, where the law gives at most `n ^ -d2` times it.
* `C83_keyword_counterexample`: C83 fails: the other models ignore keyword arguments they do not know, such as the position of the observation. A static spectrum, asked within its wavelength range, raises TypeError.
* `C83_two_counterexample`: C83 fails: an array of exactly two tables is rejected, whatever the tables.
* `C84_units_counterexample`: C84 fails: one standard deviation north of the centre (given in degrees) the galaxy should have faded by the factor `exp (-1/2)`; it has faded by less than two parts in ten thousand.
* `C85_order_counterexample`: C85 fails: the same two observations, one after the other or in the other order; the second call is rejected.
* `C86_size_counterexample`: C86 fails: with a parameter, several samples and a vector of `k` numbers for each sample, the call is rejected unless `k` is the number of samples; then the `j`-th number of every sample is drawn with the parameters of sample `j`.
* `C87_bilby_counterexample`: C87 fails for bilby priors: the result does not depend on the caller's generator at all, and it changes with the state of the global generator: for any prior whose draws can differ, and any caller's generator, there are two global states with different results.
* `C88_conditional_counterexample`: C88 fails: a conditional flow cannot be sampled once.
* `C89_bandflux_counterexample`: C89 fails for bandflux models: an extinction effect can be added to one, but every evaluation whose bandfluxes can be computed then raises NotImplementedError.
* `C89_host_and_foreground_counterexample`: C89 fails for a source with dust both in its host and in the foreground: both effects read the parameter "ebv" of the model, and the second one's value is not stored, so the foreground acts with the E(B-V) of the host.
* `C92_white_noise_counterexample`: C92 fails for a model with white noise: the generator given to simulate_lightcurves does not reach the evaluation, so the fluxes come from the entropy of the system: two runs with the same generator differ whenever the entropies give different draws, and runs with different generators agree when the entropy does.
* `C94_generator_counterexample`: C94 fails for the generator: what is passed as `rng_info` has no influence, and with the same generator passed two global states whose first draws are 0 (north) and 1/2 (south) give different declinations.
* `C94_integer_counterexample`: C94 and C95 fail for constants that are not floats: a Hubble constant given as an integer is rejected as not constant.
* `C94_single_counterexample`: C94 fails for one sample: the outputs are arrays of one number, not numbers as those of the other nodes.
* `C96_host_counterexample`: A supernova host with a host mass and a cosmology can be built, but sampling it raises TypeError (the general statement is `C96_keyword_counterexample`).
* `C96_keyword_counterexample`: C96 fails for models with further keyword arguments: they are all passed on to the function that computes the distance, which rejects them. However the redshift, the cosmology and the argument are chosen, the constructor succeeds but no state can be sampled.
* `C97_set_counterexample`: C97 fails after a failing `set`: giving `set` a parameter that the source does not have (such as the wrapper's own `t0`) raises KeyError, but the name stays registered, and from then on every spectrum, at every state, raises.
* `C99_other_filter_counterexample`: C99 (the hypotheses are met, and the disagreement): a model of two sets of curves, the first in band `a` only, the second in `a` and `b`. With the first selected, the spectrum's bandflux in `b` is zero, but asking for the bandflux in `b` raises ValueError.
