import json
P=[]
def p(id,title,statement,quantifier,why,anchors):
    P.append(dict(id=id,title=title,statement=statement,quantifier=quantifier,why_tests_cant=why,anchors=anchors))
GS="src/lightcurvelynx/graph_state.py"
BM="src/lightcurvelynx/base_models.py"
PB="src/lightcurvelynx/astro_utils/passbands.py"
PM="src/lightcurvelynx/models/physical_model.py"
MO="src/lightcurvelynx/models/multi_object_model.py"
OT="src/lightcurvelynx/obstable/obs_table.py"
SI="src/lightcurvelynx/simulate.py"
IO="src/lightcurvelynx/utils/io_utils.py"
PP="src/lightcurvelynx/utils/post_process_results.py"
LT="src/lightcurvelynx/models/lightcurve_template_model.py"
GV="src/lightcurvelynx/math_nodes/given_sampler.py"
p("C01","GraphState is a last-writer-wins map",
 "After any history of set() calls on a GraphState, reading node.param returns the value of the last successful write to exactly that parameter (expanded to num_samples copies if it was a scalar and num_samples>1), and a write to one parameter never changes what any other parameter reads.",
 "all node/parameter names, all values, all finite histories of set calls",
 "a test fixes one interleaving of a few names; aliasing between names or a dropped update may need a particular order of writes",
 [GS+":GraphState.set",GS+":GraphState.__getitem__"])
p("C02","Fixed parameters never change",
 "Once a parameter has been stored with fixed=True (or via update(all_fixed=True)), no later sequence of set/update calls, successful or raising, changes the value read for it.",
 "all states, all parameters, all later histories of set and update including failing calls",
 "the guarantee is about every future operation sequence",
 [GS+":GraphState.set",GS+":GraphState.update"])
p("C03","len(GraphState) counts the stored parameters",
 "After any history of set/update calls, len(state) equals the number of distinct (node, parameter) pairs that are stored.",
 "all histories including calls that raise",
 "counter drift only shows after particular failing histories",
 [GS+":GraphState.set",GS+":GraphState.__len__"])
p("C04","Every stored column has exactly num_samples rows",
 "In a GraphState with num_samples>1, after any history of set/update calls (failing ones included) every stored parameter is an array of exactly num_samples entries, so extracting any sample index 0<=i<num_samples, or the state of any node, cannot fail.",
 "all histories, all sample indices",
 "needs an invariant over all histories, and over all row indices",
 [GS+":GraphState.set",GS+":GraphState.extract_single_sample",GS+":GraphState.get_node_state"])
p("C05","Splitting into samples and concatenating is the identity",
 "For every reachable GraphState with num_samples>1, concatenating (from_list) the single-sample states obtained by iterating over it gives back a state with the same num_samples, the same parameters and the same values in the same row order; in general row k of a concatenation is the matching row of the input it came from.",
 "all reachable states, all lists of states with equal parameter sets",
 "off-by-one or ordering faults depend on sizes and on how many states are concatenated",
 [GS+":GraphState.from_list",GS+":GraphState.extract_single_sample",GS+":GraphState._iterate"])
p("C06","Dictionary and table exports round-trip",
 "from_dict(to_dict(s), num_samples=s.num_samples) and from_table(to_table(s)) hold the same parameters with the same values as s, for every reachable s; the exported keys 'node.param' are pairwise distinct and split back to the names they were made from.",
 "all reachable states, all names",
 "injectivity of the 'node.param' naming is a statement about every pair of names",
 [GS+":GraphState.to_dict",GS+":GraphState.from_dict",GS+":GraphState.to_table",GS+":GraphState.from_table",GS+":GraphState.extended_param_name"])
p("C07","extract_parameters returns exactly the requested parameters",
 "extract_parameters(params): a full name returns that parameter or raises KeyError; a short name found in exactly one node is returned under the short name; a short name found in two or more nodes is returned once per node under the full names and never under the short name; a short name found nowhere raises KeyError; nothing else is returned.",
 "all states, all lists of requested names",
 "the result depends on the number and order of nodes sharing a name",
 [GS+":GraphState.extract_parameters"])
p("C08","Membership and lookup agree",
 "For every GraphState and key: 'key in state' is True exactly when state[key] yields a stored value; otherwise 'in' is False and state[key] raises KeyError. Names containing '.' can never be stored, so a key names at most one parameter.",
 "all states and keys",
 "the special single-node case makes behaviour depend on how many nodes the state happens to hold",
 [GS+":GraphState.__contains__",GS+":GraphState.__getitem__"])
p("C09","update merges without touching anything else",
 "state.update(inputs) makes every non-fixed parameter of inputs readable with its (broadcast) value, leaves all other parameters unchanged, and with a GraphState of a different num_samples (not 1) raises before changing anything.",
 "all pairs of states, all nested dictionaries",
 "needs every pair of overlapping states",
 [GS+":GraphState.update"])
p("C10","transpose_dict_of_list is a transpose",
 "transpose_dict_of_list(d, n) returns n dictionaries with the keys of d such that result[i][k] == d[k][i]; it raises iff n<1 or some list has a length other than n.",
 "all dictionaries and n",
 "quantified over sizes",
 [GS+":transpose_dict_of_list"])
p("C11","Graph positions are a consistent numbering",
 "set_graph_positions gives every node reachable from the root through parameter dependencies exactly one position; positions are 0..k-1 without gaps or repeats, the root gets 0, and the numbering does not depend on previous numbering.",
 "all finite parameter graphs (including shared nodes and cycles)",
 "graph shapes are unbounded",
 [BM+":ParameterizedNode.set_graph_positions"])
p("C12","Sampling respects dependencies",
 "In one sample_parameters call every node is sampled exactly once, and whenever a parameter is produced from another parameter, that other parameter already has its final value, so the result satisfies every defining equation (constants equal the constant, linked parameters equal their source, function outputs equal the function of the sampled inputs).",
 "all parameter graphs that construct (acyclic), all constants and functions",
 "depends on the order in which an arbitrary graph is traversed",
 [BM+":ParameterizedNode._sample_helper",BM+":ParameterizedNode.sample_parameters"])
p("C13","Caller-specified parameters win",
 "Every parameter given in given_args has exactly the given value in the sampled state, whatever setter the graph has for it, and everything derived from it is computed from the given value.",
 "all graphs, all given_args",
 "needs every position of the override in every graph",
 [BM+":ParameterizedNode.sample_parameters",GS+":GraphState.update"])
p("C14","Sampling is complete",
 "A successful sample_parameters(num_samples=N) yields a state holding every declared parameter of every reachable node, each with N rows when N>1, and nothing outside the reachable nodes except given_args.",
 "all graphs, all N>=1",
 "quantified over graphs and N",
 [BM+":ParameterizedNode._sample_helper"])
p("C15","Two nodes never share storage",
 "If two different reachable nodes would have the same name, sample_parameters raises instead of letting one overwrite the other's parameters.",
 "all graphs and labels",
 "collision may need a specific label/position combination",
 [BM+":ParameterizedNode._sample_helper",BM+":ParameterizedNode._update_node_string"])
p("C16","The dependency graph is exactly the dependency relation",
 "build_dependency_graph lists every parameter of every reachable node, has an edge a->b iff b's setter reads a, incoming and outgoing are mutually inverse, and every constant has its own entry. A graph that a program fills by add_parameter, add_constant and add_edge contains and counts exactly the names added, lists an edge on both sides as often as it was asked for, and refuses with KeyError, without an effect, exactly the edges with an end that was not added.",
 "all graphs; all sequences of calls",
 "quantified over graphs",
 [BM+":ParameterizedNode.build_dependency_graph",GS+":DependencyGraph"])
p("C17","The gradient pytree holds exactly the differentiable constants",
 "build_pytree returns exactly the parameters that allow gradients, for the node itself and for the nodes reached from it through parameters that do not allow gradients, each with its value in the given state; parameters that do not allow gradients never appear, and an un-numbered graph raises ValueError.",
 "all graphs and sampled states",
 "quantified over graphs",
 [BM+":ParameterizedNode.build_pytree"])
p("C18","FunctionNode wiring",
 "compute() calls the function with each declared argument bound to its sampled value (explicit kwargs taking precedence), and stores output i under output name i; a wrong number of outputs raises and no partial result is stored.",
 "all argument lists, output lists and functions",
 "quantified over functions and arities",
 [BM+":FunctionNode._build_inputs",BM+":FunctionNode._save_results",BM+":FunctionNode.compute"])
p("C19","Ordered list sampler never skips, repeats or reorders",
 "GivenValueList: over any sequence of compute calls (any sizes, interleaved with resets) the values handed out since the last reset are exactly the first elements of the list in order; a call asking for more than remain raises IndexError and consumes nothing.",
 "all lists, all call histories",
 "cursor faults depend on the history of batch sizes",
 [GV+":GivenValueList.compute",GV+":GivenValueList.reset"])
p("C20","Table sampler keeps rows together",
 "TableSampler: every sample is one row of the table (all columns from the same row); in_order mode hands out consecutive rows starting at 0 across calls and raises when rows run out; random mode only uses existing rows.",
 "all tables, all call histories, all random draws",
 "row mixing across columns needs particular histories",
 [GV+":TableSampler.compute"])
p("C21","Math expressions are confined to arithmetic",
 "BasicMathNode accepts an expression only if every syntax node is in the arithmetic whitelist, every call is to a listed math function and every free name is a declared input or listed constant; the rewritten expression denotes the same function as the given one, and evaluating an accepted expression can reach no attribute access, import, subscript or other call.",
 "all expressions",
 "an escape may hide at any depth of an expression",
 ["src/lightcurvelynx/math_nodes/basic_math_node.py:BasicMathNode._prepare"])
p("C22","Choice samplers only return given options",
 "GivenValueSampler/BinarySampler/GivenValueSelector return only elements of their option list (BinarySampler only 0/1 with value 1 iff the draw is below p), with num_samples entries; weights are normalised to sum to one and invalid weights are rejected.",
 "all option lists, weights and draws",
 "quantified over draws",
 [GV+":GivenValueSampler",GV+":BinarySampler",GV+":GivenValueSelector"])
p("C23","MOC sampling stays inside the MOC",
 "ApproximateMOCSampler: every generated depth-29 pixel is a descendant of a pixel of the (degraded) coverage map, and every descendant can be generated.",
 "all coverage maps, depths and random draws",
 "bit arithmetic over all depths",
 ["src/lightcurvelynx/math_nodes/ra_dec_sampler.py:ApproximateMOCSampler"])
p("C24","Uniform sphere sampling has the right range and law",
 "UniformRADEC maps uniform draws u,v in [0,1) to RA in [0,360) and dec in [-90,90], with sin(dec) affine in the draw (so area-uniform), monotone and onto.",
 "all draws",
 "real-valued statement over a continuum",
 ["src/lightcurvelynx/math_nodes/ra_dec_sampler.py:UniformRADEC"])
p("C25","Footprint rejection sampling returns covered points",
 "ObsTableUniformRADECSampler returns num_samples points each of which is covered by at least one observation of the table.",
 "all tables, all streams of random draws",
 "the failing stream of draws has low probability",
 ["src/lightcurvelynx/math_nodes/ra_dec_sampler.py:ObsTableUniformRADECSampler"])
p("C26","Bandflux of a flat spectrum is that flux",
 "A constructed Passband is normalised so that a spectrum with constant flux density c yields bandflux exactly c; bandflux is linear in the spectrum, additive, non-negative for non-negative spectra and bounded by the largest flux.",
 "all transmission tables, all delta_wave/trim settings, all spectra",
 "holds or fails depending on divisibility of the grid",
 [PB+":Passband._normalize_interpolated_transmission_table",PB+":Passband.fluxes_to_bandflux"])
p("C27","Interpolated passband stays within its support",
 "The interpolated passband grid is strictly increasing, spans exactly the (trimmed) table's range, and its transmission values lie between 0 and the maximum of the original table, agreeing with the table at table wavelengths that are grid points.",
 "all tables and delta_wave",
 "quantified over tables",
 [PB+":Passband._interpolate_transmission_table"])
p("C28","Quantile trimming removes at most the requested tail",
 "Trimming with quantile q removes at most a fraction q of the integrated transmission from each side and never changes retained entries.",
 "all transmission tables and 0<=q<0.5",
 "quantified over tables; off-by-one only matters near the threshold",
 [PB+":Passband._trim_transmission_by_quantile"])
p("C29","A PassbandGroup's shared wavelength grid serves every band",
 "The group's wavelength array is sorted and contains every wavelength of every member band, and the per-band index selects, from fluxes given on the shared grid, precisely the fluxes at that band's own wavelengths, so group bandfluxes equal those of the individual passbands.",
 "all collections of passbands",
 "depends on near-coincident wavelengths across bands",
 [PB+":PassbandGroup._update_waves",PB+":PassbandGroup.fluxes_to_bandflux",PB+":PassbandGroup.fluxes_to_bandfluxes"])
p("C30","Passband lookup is unambiguous",
 "group[key] returns the band with that full name, or the unique band whose filter name is key, and raises KeyError for unknown or ambiguous keys; bandflux computation by filter name uses the band lookup returns.",
 "all groups and keys",
 "depends on which surveys are loaded together",
 [PB+":PassbandGroup.__getitem__",PB+":PassbandGroup.fluxes_to_bandflux"])
p("C31","Each observation gets the flux of its own filter and time",
 "evaluate_bandfluxes returns one value per observation, in input order, where entry i is the bandflux in filter filters[i] at times[i], independent of the other observations in the request.",
 "all lists of times and filters, all models and effects that treat times one by one and draw no random numbers",
 "scatter faults depend on the interleaving of filters",
 [PM+":SEDModel._evaluate_bandfluxes_single",PM+":BasePhysicalModel.evaluate_bandfluxes",PB+":PassbandGroup.fluxes_to_bandfluxes"])
p("C32","Redshift transforms are consistent",
 "With apply_redshift, evaluating at observer time t and wavelength w evaluates the rest-frame model at t0+(t-t0)/(1+z), w/(1+z) and scales by (1+z); the transform is invertible, fixes t0, composes multiplicatively in (1+z) and is the identity at z=0.",
 "all t, t0, w and z>-1",
 "continuum of inputs",
 ["src/lightcurvelynx/astro_utils/redshift.py:obs_to_rest_times_waves","src/lightcurvelynx/astro_utils/redshift.py:rest_to_obs_flux",PM+":SEDModel._evaluate_single"])
p("C33","Effects are applied once each, in the right frame and order",
 "evaluate_sed applies every rest-frame effect once, in the order added, before redshifting and every observer-frame effect once, in the order added, after redshifting; wavelength extrapolation happens before effects.",
 "all lists of effects and all models",
 "order faults show only with non-commuting effects",
 [PM+":SEDModel.add_effect",PM+":SEDModel._evaluate_single"])
p("C34","Wavelength extrapolation does not disturb the modelled range",
 "compute_sed_with_extrapolation returns one column per requested wavelength in the requested order; columns inside [minwave,maxwave] equal compute_sed at those wavelengths; columns below/above come from the before/after extrapolator evaluated from the edge flux; built-in extrapolators are continuous at the edge or zero as documented.",
 "all wavelength lists (unsorted, any subset outside), all models, all extrapolators",
 "index bookkeeping depends on which wavelengths are out of range",
 [PM+":SEDModel.compute_sed_with_extrapolation","src/lightcurvelynx/utils/wave_extrapolate.py"])
p("C35","Additive models add",
 "AdditiveMultiObjectModel evaluates to the sum over its objects, independent of their order; an observer-frame effect added to the composite applies once to the sum, a rest-frame effect is handed to each object.",
 "all lists of objects, all effects",
 "quantified over lists",
 [MO+":AdditiveMultiObjectModel"])
p("C36","Random mixture models evaluate exactly the selected object",
 "RandomMultiObjectModel returns the evaluation of the object selected by the sampled name, under that object's own parameters, and reports minwave/maxwave of that object.",
 "all object lists and selections",
 "quantified over selections",
 [MO+":RandomMultiObjectModel"])
p("C37","range_search returns exactly the matching observations",
 "ObsTable.range_search(ra,dec,radius,t_min,t_max) returns, for each query, exactly the row numbers whose pointing is within radius, whose time is in [t_min,t_max], and (with a footprint) whose rotated footprint contains the point; per-query bounds apply to their own query; invalid shapes raise.",
 "all tables, query lists, radii, time bounds, footprints",
 "set equality over all tables",
 [OT+":ObsTable.range_search",OT+":ObsTable.is_observed"])
p("C38","Filtering rows keeps a consistent table",
 "After filter_rows(mask) the table contains exactly the rows with mask True in order, and every query (range_search, get_observations, filters, time_bounds) on the result agrees with building a new table from those rows.",
 "all tables, all masks, all sequences of filters followed by queries",
 "index-label faults need a filter followed by a query",
 [OT+":ObsTable.filter_rows",OT+":ObsTable.get_observations"])
p("C39","Column mapping is transparent",
 "A column is reachable under its mapped and its original name and both give the same data; construction rejects a table missing required columns; adding a column never silently overwrites.",
 "all tables and column maps",
 "quantified over maps",
 [OT+":ObsTable.__init__",OT+":ObsTable.__getitem__",OT+":ObsTable.__contains__",OT+":ObsTable.add_column"])
p("C40","Simulated lightcurves line up with the observations",
 "simulate_lightcurves returns one result row per sampled object in order; its nested lightcurve has one entry per observation that matches the object's position and time window (after the optional mask of interesting times), with mjd, filter, flux, error and saved columns all taken from the same observation, and nobs equal to the number of entries; an object no observation matches has an empty lightcurve; with several surveys entries are concatenated in survey order with the survey index recorded.",
 "all numbers of objects, surveys and observations, all models",
 "alignment faults depend on which objects are (un)observed",
 [SI+":simulate_lightcurves",SI+":get_time_windows"])
p("C41","Time windows",
 "get_time_windows(t0,(before,after)) gives start=t0-before and end=t0+after elementwise with None meaning unbounded, and an observation at time t is used for an object iff start<=t<=end.",
 "all t0 (scalar or array) and offsets",
 "quantified over arrays and None combinations",
 [SI+":get_time_windows"])
p("C42","Noise model",
 "The point-source flux error is non-negative, non-decreasing in flux, sky, readout noise, dark current and exposure count, equals the documented Poisson sum, and scales linearly when flux and zero point are scaled together; added noise is flux plus draw times error.",
 "all physical inputs",
 "continuum of inputs",
 ["src/lightcurvelynx/astro_utils/noise_model.py:poisson_bandflux_std","src/lightcurvelynx/astro_utils/noise_model.py:apply_noise"])
p("C43","Magnitude and flux conversions are mutually inverse",
 "flux2mag(mag2flux(m)) = m for all m, mag2flux(flux2mag(f)) = f for f>0, both strictly decreasing, and a difference of 5 magnitudes is a factor 100.",
 "all reals",
 "continuum of inputs",
 ["src/lightcurvelynx/astro_utils/mag_flux.py"])
p("C44","Augmenting lightcurves is per-row and correct",
 "results_augment_lightcurves adds to every lightcurve entry snr=flux/fluxerr, detection (true iff snr is at least the threshold, false otherwise), mag of the flux (only where flux is positive) and time relative to that object's own t0, leaving other columns and row count unchanged.",
 "all result tables, including row-filtered ones and t0 values of 0",
 "label/position mixups need filtered tables",
 [PP+":results_augment_lightcurves",PP+":augment_single_lightcurve"])
p("C45","LCLIB reader recovers every curve",
 "Reading a well-formed LCLIB text yields one table per event, in order, with the rows of that event, its own metadata, and per-filter columns; malformed events raise.",
 "all well-formed files, any number of events and rows",
 "state carried between events shows only in particular file orders",
 [IO+":read_lclib_data",IO+":_read_lclib_data_from_open_file"])
p("C46","Grid reader inverts a grid dump",
 "read_grid_data on a 3-column dump of a full (x0,x1) grid in row-major order returns the sorted axes and the value matrix; any file that is not a full grid in order raises ValueError.",
 "all grids and all permutations/omissions of rows",
 "quantified over grids",
 [IO+":read_grid_data"])
p("C47","Every file written by write_numpy_data can be read back",
 "read_numpy_data(f) after write_numpy_data(f, data) returns data for every supported file name; unsupported extensions raise in both.",
 "all file names",
 "extension handling differs by suffix",
 [IO+":read_numpy_data",IO+":write_numpy_data"])
p("C48","Bicubic interpolation reproduces the grid and constants",
 "The interpolator's weights sum to one, a grid point query returns the stored value, constant grids give the constant everywhere inside, and index arithmetic never leaves the grid. A call on an array of N x queries and one of M y queries returns N rows of M values, each the value of its own pair.",
 "all grids and query points",
 "real-valued kernels and unbounded grids",
 ["src/lightcurvelynx/utils/bicubic_interp.py"])
p("C49","Lightcurve templates: periodicity and baselines",
 "A periodic template gives equal flux at times differing by a period; a non-periodic template gives the baseline outside its time range and linear interpolation inside; non-conforming periodic data is rejected; magnitude input is converted so that a missing baseline means zero flux.",
 "all templates and times",
 "continuum of times",
 [LT+":LightcurveData"])
p("C50","Template SED basis reproduces its lightcurves",
 "LightcurveTemplateModel's bandfluxes computed through its SED basis equal the template's value in each filter; filters without a curve raise.",
 "all template sets and passband groups",
 "depends on overlapping passbands",
 [LT+":BaseLightcurveTemplateModel._create_sed_basis",LT+":LightcurveTemplateModel.compute_bandflux"])
p("C51","Photometric zero points are consistent",
 "magnitude and flux zero points agree through mag2flux, one electron corresponds to the zero-point flux, zero point increases by 2.5 log10 with exposure time, and the zero point derived from a limiting magnitude makes a source of that magnitude have SNR 5.",
 "all physical inputs",
 "continuum of inputs",
 ["src/lightcurvelynx/astro_utils/zeropoint.py"])
p("C52","Spectral unit conversions are mutually inverse",
 "fnu_to_flam(flam_to_fnu(x)) = x for every positive wavelength and back, elementwise on time-by-wavelength grids; both are linear.",
 "all fluxes and positive wavelengths",
 "continuum of inputs",
 ["src/lightcurvelynx/astro_utils/unit_utils.py"])
p("C53","Detector footprint membership",
 "DetectorFootprint.contains broadcasts scalar centers/rotations over arrays, returns one boolean per point equal to membership of the point rotated into the detector frame, is invariant under rotating both, and rejects mismatched shapes.",
 "all shapes and points",
 "shape combinations are unbounded",
 ["src/lightcurvelynx/astro_utils/detector_footprint.py:DetectorFootprint.contains"])
p("C54","Noise-free lightcurves match the simulation grid",
 "compute_noise_free_lightcurves returns for every sample the grid of its requested rest-frame phases, the observer-frame times t0 + phase*(1+z), and for every filter the bandfluxes obtained by evaluating that sample's model in that filter at these times, in order.",
 "all samples, times and filters",
 "quantified over grids",
 [SI+":compute_noise_free_lightcurves",SI+":compute_single_noise_free_lightcurve"])
p("C55","Damped random walk advances in time",
 "sample_damped_random_walk rejects non-increasing times and each step decays from the previous time, so the value at a time depends on the elapsed time since the previous sample.",
 "all increasing time lists",
 "recurrence over unbounded lists",
 ["src/lightcurvelynx/models/agn.py:sample_damped_random_walk"])
p("C56","Oversampled survey tables are well formed",
 "oversample_opsim produces a table on the requested time grid with every requested band for every time range long enough to hold all bands.",
 "all time ranges, steps and band lists",
 "fails only for particular divisibility",
 ["src/lightcurvelynx/obstable/opsim.py:oversample_opsim"])
p("C57","Inverse-transform samplers stay in the support",
 "SamplePDF/SampleLogPDF-style distribution sampling returns values within the tabulated support with the tabulated cumulative distribution, monotone in the underlying uniform draw.",
 "all tabulated densities and draws",
 "continuum of draws",
 ["src/lightcurvelynx/math_nodes/distribution_sampler.py","src/lightcurvelynx/math_nodes/scipy_random.py"])
p("C58","Periodic models repeat",
 "A periodic model's flux at t and at t+k*period is identical for every integer k, and the phase always lies in [0,1).",
 "all times, periods and integers k",
 "continuum of inputs",
 ["src/lightcurvelynx/models/periodic_model.py:PeriodicModel.compute_sed"])
p("C59","Setting a parameter again replaces its source",
 "add_parameter/set_parameter resolve a parameter's source by the documented precedence (explicit value, then the caller's kwargs, then default), set_parameter on an unknown name raises, adding an existing name raises, and after any history each parameter has exactly one source, the last one set.",
 "all histories of add/set calls",
 "history-dependent",
 [BM+":ParameterizedNode.set_parameter",BM+":ParameterizedNode.add_parameter"])
p("C60","A derived state is an ordinary state",
 "A state obtained by copying or by extracting one sample accepts the same later set/update calls, with the same outcomes, as a state built directly with the same contents.",
 "all reachable states, all sample indices, all later histories of calls",
 "whether a derived state behaves like an ordinary one only shows in the histories that follow",
 [GS+":GraphState.copy",GS+":GraphState.extract_single_sample",GS+":GraphState.set"])
p("C61","Overriding a function node's output takes effect",
 "After set_parameter gives an output of a function node a new source and returns normally, sampling yields the value of that source for it, as for every other parameter.",
 "all function nodes, all numbers of outputs, all values",
 "whether the override survives depends on which other outputs are still computed, on any graph",
 [BM+":ParameterizedNode.set_parameter",BM+":ParameterizedNode._sample_helper",BM+":FunctionNode._save_results"])
p("C62","Editing a graph never leaves stale numbering",
 "After any history of successful graph edits, sampling a node sees current, pairwise distinct automatic names for all nodes it reaches, exactly as if the graph had been numbered just before.",
 "all histories of edits and of explicit or implicit numberings",
 "it needs a history that numbers first and edits a dependency later",
 [BM+":ParameterizedNode.set_parameter",BM+":ParameterizedNode.set_graph_positions",BM+":ParameterizedNode.sample_parameters"])
p("C63","get_param and generate return what sampling recorded",
 "generate(rng, given_args, num_samples) returns exactly the value (or tuple of values) that sampling the same node with the same arguments records for the node's outputs, and get_param(state, name, default) returns the recorded value of that node's parameter, the default when it is not recorded, and never another node's value.",
 "all nodes, states, defaults and sample counts",
 "it relates two entry points over every graph and every history of the random state",
 [BM+":FunctionNode.generate",BM+":ParameterizedNode.get_param"])
p("C64","A PassbandGroup's filters argument keeps exactly the requested bands",
 "A PassbandGroup built with a list of filters holds exactly the last given passband of each full name that is asked for by full name or by filter name, and construction raises ValueError exactly when some entry of the list names no given band; without a list every given band is kept.",
 "all lists of passbands and all filter lists",
 "the pruning loop's outcome depends on every overlap of full and short names",
 ["src/lightcurvelynx/astro_utils/passbands.py:PassbandGroup.__init__"])
p("C65","Keyword arguments of evaluate_sed reach the model",
 "Extra keyword arguments given to evaluate_sed are handed to the model's compute_sed for every requested wavelength, whether or not other requested wavelengths lie outside the model's limits.",
 "all models, keyword arguments and lists of wavelengths",
 "whether the arguments arrive depends on the whole list of wavelengths and the redshift",
 [PM+":SEDModel.compute_sed_with_extrapolation",PM+":SEDModel.evaluate_sed"])
p("C66","An effect's own parameters take effect",
 "After add_effect(effect), evaluation applies the effect with the parameter values the effect was built with, and all other parameters of the model keep their values.",
 "all models and sequences of effects",
 "depends on the names of all parameters of the model and of every effect added before",
 [PM+":SEDModel.add_effect",PM+":BandfluxModel.add_effect","src/lightcurvelynx/effects/basic_effects.py:ConstantDimming"])
p("C67","Switching redshift on a composite reaches every SED component",
 "set_apply_redshift(flag) on a model sets the flag of that model and, for a composite, of every SED component however deeply nested; components that model bandfluxes directly are left alone.",
 "all composites of SED and bandflux models",
 "the set of components is unbounded and nested",
 [PM+":SEDModel.set_apply_redshift","src/lightcurvelynx/models/multi_object_model.py:MultiObjectModel.set_apply_redshift"])
p("C68","Survey constants are assigned by filter",
 "When a table lacks a column for which the survey has a constant, the derived column holds for every row the constant of that row's filter (a single number counts for every filter); an existing column is never replaced, a missing or non-positive entry raises ValueError.",
 "all tables, filters and constants",
 "mask assignment faults depend on the interleaving of filters and on missing columns",
 ["src/lightcurvelynx/obstable/obs_table.py:ObsTable._assign_constant_if_needed"])
p("C69","Flux errors use the observation's own row",
 "bandflux_error_point_source(flux, index) of every survey table returns one error per requested observation; the k-th error is the documented noise model evaluated at the k-th flux with the exposure time, PSF, sky and zero point of the row index[k] (or, for a constant error, the constant of that row's filter); rows beyond the table raise.",
 "all tables, flux lists and lists of rows, repeated and unordered ones included",
 "misalignment between fluxes and rows shows only for particular index lists",
 ["src/lightcurvelynx/obstable/opsim.py:OpSim.bandflux_error_point_source","src/lightcurvelynx/obstable/ztf_obstable.py:ZTFObsTable.bandflux_error_point_source","src/lightcurvelynx/obstable/roman_obstable.py:RomanObsTable.bandflux_error_point_source","src/lightcurvelynx/obstable/fake_obs_table.py:FakeObsTable.bandflux_error_point_source"])
p("C70","A survey table built from constants is complete",
 "A FakeObsTable that can be constructed has everything its flux errors need: zero points per band are assigned by filter and positive, missing exposure time, exposure count, PSF or sky are filled from the constants or rejected with ValueError, given columns are never changed, and a constant flux error covers every filter with a non-negative value.",
 "all tables and constants",
 "depends on every combination of given columns, constants and filters",
 ["src/lightcurvelynx/obstable/fake_obs_table.py:FakeObsTable"])
p("C71","Detection efficiencies are probabilities",
 "phot_eff_function is 1 exactly where the signal-to-noise ratio exceeds 5 and 0 elsewhere; spec_eff_function lies strictly between 0 and 1, strictly decreases with the peak magnitude and is one half at 51.9/2.36.",
 "all signal-to-noise ratios and magnitudes",
 "a claim about every real number",
 ["src/lightcurvelynx/astro_utils/obs_utils.py:phot_eff_function","src/lightcurvelynx/astro_utils/obs_utils.py:spec_eff_function"])
p("C72","Dropping empty lightcurves loses no observation",
 "results_drop_empty keeps exactly the rows that have lightcurve entries, in order and with all their columns, and every entry of every lightcurve.",
 "all result tables",
 "must hold for every pattern of empty and non-empty rows",
 ["src/lightcurvelynx/utils/post_process_results.py:results_drop_empty"])
p("C73","Eclipsing binaries dim, never brighten",
 "The light of an eclipsing binary is never negative and never exceeds the light of both stars; it equals it when the discs do not overlap, equals the nearer star alone in a total eclipse, loses exactly the covered fraction in an annular one, and eclipses are symmetric in phase.",
 "all radii, luminosities, inclinations and phases",
 "continuum of geometric configurations, including tangent and concentric discs",
 ["src/lightcurvelynx/models/periodic_variable_star.py:EclipsingBinaryStar"])
p("C74","BayeSN's spline basis is the natural cubic spline",
  "For strictly increasing knots (at least two) the spline helper of BayesnModel never fails, and multiplying its basis matrix with any knot values gives at every query point the natural cubic spline through those values: it takes the given values at the knots, is a cubic between knots, has continuous first and second derivatives, has zero second derivative at both ends, reproduces straight lines everywhere, and the two-dimensional warping surface takes the given coefficient at every pair of knots. Fewer than two knots raise ValueError.",
  "every strictly increasing list of knots of any length, every vector of knot values, every query point",
  "a test compares a handful of points with another spline implementation; the smoothness and interpolation conditions hold for every knot list and every value vector",
  ["src/lightcurvelynx/models/bayesn.py:compute_invkd","src/lightcurvelynx/models/bayesn.py:natural_cubic_spline_basis_matrix_from_invkd","src/lightcurvelynx/models/bayesn.py:compute_sed"])
p("C75","BayeSN's template surface passes through its table",
  "Evaluating the tabulated Hsiao template at a tabulated phase and wavelength returns the tabulated flux, and the curvatures used between grid points are the second derivatives of the natural spline through the data.",
  "every grid with strictly increasing axes, every flux table, every grid point",
  "unit tests use a grid of step one; the interpolation formula only agrees with the table for that step",
  ["src/lightcurvelynx/models/bayesn.py:compute_second_derivatives_1d","src/lightcurvelynx/models/bayesn.py:evaluate_natural_spline_2d_vectorized","src/lightcurvelynx/models/bayesn.py:evaluate_2d_cubic_spline"])
p("C76","The SALT2 colour law is smooth and normalised",
  "For every coefficient list and wavelength range, SALT2ColorLaw.apply returns, inside the range, minus a polynomial of degree at most seven in the wavelength scaled so that 4302.57 Å is 0 and 5428.55 Å is 1; beyond either end it continues along the tangent at that end; it is 0 at 4302.57 Å and -1 at 5428.55 Å; coefficients after the sixth are ignored. Reading a colour-law file gives the law the file describes (default range 3000-7000 Å), and an unsupported version raises RuntimeError.",
  "every coefficient list, wavelength range and wavelength; every token file of the documented layout",
  "tests check a few tabulated values; continuity of value and slope at the ends is a statement about every coefficient list",
  ["src/lightcurvelynx/astro_utils/salt2_color_law.py:SALT2ColorLaw.apply","src/lightcurvelynx/astro_utils/salt2_color_law.py:SALT2ColorLaw.from_file"])
p("C77","SN Ia brightness follows the Tripp relation",
  "X0FromDistMod returns a positive x0 whose peak magnitude 10.635 - 2.5 log10 x0, corrected with alpha x1 and beta c, gives back the distance modulus; the SALT2 spectrum at each time and wavelength is x0 (M0 + x1 M1) 10^(-0.4 CL c) at that phase and wavelength converted to nJy, so c is the B-V colour; the volumetric rate is positive and grows with redshift.",
  "all parameter values, times, wavelengths and coefficient lists",
  "tests use a few parameter values; the relation is an identity in six real parameters",
  ["src/lightcurvelynx/astro_utils/snia_utils.py:_x0_from_distmod","src/lightcurvelynx/astro_utils/snia_utils.py:snia_volumetric_rates","src/lightcurvelynx/models/salt2_jax.py:SALT2JaxModel.compute_sed"])
p("C78","Time masks keep exactly the observations in the model's phase range",
  "mask_by_time of the SALT2, BayeSN and sncosmo models is true at an observation time exactly when the rest-frame phase of that time, the one at which the spectrum is evaluated, lies strictly inside the model's phase range; a missing redshift or t0 counts as 0.",
  "every observation time, redshift above -1, t0 and phase range",
  "a test checks a few times; an off-by-(1+z) window drops observations only for some redshifts",
  ["src/lightcurvelynx/models/salt2_jax.py:mask_by_time","src/lightcurvelynx/models/bayesn.py:mask_by_time","src/lightcurvelynx/models/sncomso_models.py:mask_by_time"])
p("C79","AGN derived parameters",
  "For every sample the AGN's accretion rates are 1.4e18 times the mass in solar masses (times the Eddington ratio), its luminosity is 1.26e38 times mass times ratio, its i magnitude falls by 2.5 per decade of luminosity, and the structure function and time scale at 4000 Å take the published reference values at magnitude -23 and 1e9 solar masses and grow with mass and faintness. Scaled to a wavelength of 4000 Å both return the 4000 Å parameters.",
  "all masses, Eddington ratios, magnitudes, wavelengths and values of the physical constants",
  "tests fix a few numbers computed with the same formula, so a misplaced exponent is invisible",
  ["src/lightcurvelynx/models/agn.py:AGN.compute_structure_function_at_inf","src/lightcurvelynx/models/agn.py:AGN.compute_tau","src/lightcurvelynx/models/agn.py:AGN.compute_mag_i","src/lightcurvelynx/models/agn.py:AGN.compute_sf_inf_4000aa"])
p("C80","AGN flux varies around the disk's average",
  "AGN.compute_sed returns one row per time and one column per wavelength, each entry the average disk flux at that wavelength changed by the magnitudes of a random walk; the average is positive unless seen edge on (then zero), falls with the square of the distance and is proportional to the cosine of the inclination; the walk can brighten as well as dim; evaluating again with the same state gives the same flux.",
  "all positive parameters, times after t0, wavelengths and random streams in [0,1)",
  "a test sees finitely many random streams; that no stream ever brightens the object is a statement about all of them",
  ["src/lightcurvelynx/models/agn.py:AGN.compute_sed","src/lightcurvelynx/models/agn.py:AGN.compute_sed_standard_disk","src/lightcurvelynx/models/agn.py:sample_damped_random_walk"])
p("C81","Eddington ratio distribution is a broken power law",
  "eddington_ratio_dist_fun returns for each drawn set of parameters the broken power law xi / ((r/br)^d1 + (r/br)^d2), a number for one sample and an array for several, and rejects galaxy types other than red and blue.",
  "all ratios, all drawn parameter sets, any number of samples",
  "the existing test only checks that samples are nonnegative",
  ["src/lightcurvelynx/astro_utils/agn_utils.py:eddington_ratio_dist_fun"])
p("C82","Basic models seen at a redshift",
  "Evaluated through evaluate_sed at any redshift above -1: a constant source shows (1+z) times its brightness everywhere; a step source shows it exactly between t0 and t0+(1+z)(t1-t0), ends included, and zero outside; a sine source is a sine with the frequency divided by 1+z, in phase at t0; a linear spectrum keeps its slope and has its base multiplied by 1+z, and is zero outside its stretched wavelength bounds; an unset t0 raises.",
  "all parameter values, all lists of times, all nonempty lists of wavelengths, all redshifts above -1",
  "boundary times and redshift combinations form a continuum; tests check a handful",
  ["src/lightcurvelynx/models/basic_models.py:ConstantSEDModel.compute_sed","src/lightcurvelynx/models/basic_models.py:StepModel.compute_sed","src/lightcurvelynx/models/basic_models.py:SinWaveModel.compute_sed","src/lightcurvelynx/models/basic_models.py:LinearWavelengthModel.compute_sed"])
p("C83","Static models return the selected table",
  "StaticSEDModel accepts any nonempty collection of tables with at least two increasing wavelengths and rejects the rest with ValueError; evaluate_sed returns at every time (1+z) times the selected table at w/(1+z): the tabulated flux at tabulated wavelengths, a value between the neighbours inside, zero outside; unknown keyword arguments are ignored as by other models. StaticBandfluxModel returns for each time the selected mapping's value of its filter and raises KeyError for a filter it does not have.",
  "all collections of tables in any container, all selections, times, wavelengths, redshifts and filters",
  "the failing container (an array of exactly two tables) is one size among infinitely many",
  ["src/lightcurvelynx/models/static_sed_model.py:StaticSEDModel","src/lightcurvelynx/models/static_sed_model.py:StaticBandfluxModel.compute_bandflux"])
p("C84","A Gaussian galaxy fades with angle as documented",
  "GaussianGalaxy shows its brightness at the centre and exp(-d^2/(2 s^2)) of it at an angle of d degrees, where s is galaxy_radius_std in degrees; the flux is the same at all times and wavelengths.",
  "all positions, standard deviations, times, wavelengths and redshifts",
  "the existing test only checks that the flux lies between the source alone and the full sum, which any fading factor satisfies",
  ["src/lightcurvelynx/models/galaxy_models.py:GaussianGalaxy.compute_sed"])
p("C85","A spline model accepts observations in any order",
  "SplineModel returns amplitude times the fitted spline at (t - t0, w) for every requested time and wavelength, whatever the order of the times; an unset t0 counts as 0.",
  "all lists of times and wavelengths, all spline surfaces and amplitudes",
  "tests pass sorted times; the claim is about every permutation",
  ["src/lightcurvelynx/models/spline_model.py:SplineModel.compute_sed"])
p("C86","Numpy random nodes draw one independent value per sample with that sample's parameters",
"NumpyRandomFunc: with no size every one of the N samples gets its own number, transformed from its own draw of the generator with that sample's own parameter values; one sample gives a scalar and N samples an array of N. With a size, the result has the sample axis first followed by the size's axes, every entry has its own draw and uses the parameters of its own sample. The constructor rejects 'choice', unknown functions and non-positive sizes.",
"every function, list of parameters (of any number), parameter values per sample, number of samples, size tuple of any depth and generator state",
"numpy silently aligns a per-sample parameter array with the last axis; whether an entry sees its own sample's parameters depends on the combination of size and sample count and the values are random.",
["src/lightcurvelynx/math_nodes/np_random.py:NumpyRandomFunc.__init__","src/lightcurvelynx/math_nodes/np_random.py:NumpyRandomFunc.compute"])
p("C87","A caller's generator is honoured by random nodes",
"When sampling is given an explicit generator, a random node's values are a function of that generator's state (and its inputs) alone; the node's own generator is not advanced and no global generator is read. Without it, the node uses and advances its own, with the same values for the same state.",
"every random node kind, parameter values, number of samples, states of the node's own, the caller's and the global generator",
"Independence from hidden generator state quantifies over all pairs of states; a seeded test fixes one.",
["src/lightcurvelynx/math_nodes/np_random.py:NumpyRandomFunc.compute","src/lightcurvelynx/math_nodes/scipy_random.py:NumericalInversePolynomialFunc.compute","src/lightcurvelynx/astro_utils/snia_utils.py:HostmassX1Func.compute","src/lightcurvelynx/math_nodes/bilby_priors.py:BilbyPriorNode.compute"])
p("C88","Nodes with one distribution per sample draw each sample from its own distribution",
"Inverse-polynomial nodes over a distribution class, the supernova stretch node and flow nodes draw sample i from the distribution conditioned on sample i's own inputs, each with its own draw, for any number of samples including one; hosts of log mass at least 10 use the heavy-host distribution and the rest the light-host one, whose densities are as documented.",
"every number of samples, inputs per sample, generator state, distribution or flow",
"The vectorised masks could permute samples; correct pairing must hold for every mix of masses and every sample count.",
["src/lightcurvelynx/math_nodes/scipy_random.py:NumericalInversePolynomialFunc.compute","src/lightcurvelynx/astro_utils/snia_utils.py:HostmassX1Func.compute","src/lightcurvelynx/astro_utils/snia_utils.py:HostmassX1Distr","src/lightcurvelynx/astro_utils/pzflow_node.py:PZFlowNode.compute"])
p("C89", "Dust extinction dims by the law at the right wavelength",
  "An ExtinctionEffect added to a model multiplies the flux at every time and wavelength by 10^(-0.4 A(w)/A(V) R(V) E(B-V)), where the law is evaluated at the emitted wavelength for frame 'rest' and at the observed one for frame 'observer'; the factor is 1 without dust, in (0,1] and decreasing in E(B-V) for a non-negative law, and multiplicative in E(B-V); wavelengths outside the law and a missing E(B-V) raise ValueError, other frames are rejected; host and foreground dust can be combined; bandflux models are supported.",
  "all laws, models, frames, redshifts, E(B-V) values, times and wavelengths",
  "the law, the frame, the redshift and the wavelengths are all arbitrary; a test fixes one combination",
  ["src/lightcurvelynx/effects/extinction.py:ExtinctionEffect", "src/lightcurvelynx/effects/effect_model.py:EffectModel", "src/lightcurvelynx/models/physical_model.py:SEDModel._evaluate_single"])
p("C90", "Microlensing magnifies by the Paczynski curve, for spectra and bandfluxes alike",
  "A Microlensing effect added to any model multiplies the flux at each observer-frame time, equally at all wavelengths, by the point-source point-lens magnification, which exceeds 1, is symmetric about the peak, falls strictly with the distance from it and tends to 1; switched off it changes nothing; missing parameters raise ValueError; the effect on the bandfluxes of an SED model is the same as its bandflux form gives.",
  "all impact parameters, time scales, peaks, probabilities, models, times, wavelengths and passband groups",
  "properties of a curve at all real times and of an interchange of integration and scaling for all passbands",
  ["src/lightcurvelynx/effects/microlensing.py:Microlensing", "src/lightcurvelynx/models/physical_model.py:SEDModel._evaluate_bandfluxes_single"])
p("C91", "White noise is independent per entry and drawn from the given generator",
  "WhiteNoise adds to every entry of a flux array (or bandflux list) sigma times its own standard normal draw, in row order, from the generator passed as rng_info (a new one without); exactly one number is drawn per entry; with a generator the result is reproducible; added in the rest frame to a source at redshift z the observed noise has scale (1+z) sigma, in the observer frame sigma; a missing or negative sigma raises ValueError.",
  "all flux arrays, scales, generators, frames and redshifts",
  "which draw lands on which entry and where the generator ends up depends on every array shape",
  ["src/lightcurvelynx/effects/white_noise.py:WhiteNoise"])
p("C92", "A simulation with a given generator is reproducible",
  "Two calls of simulate_lightcurves with the same sampled states, surveys and generator give the same lightcurves and leave the generator in the same state, whatever unseeded randomness the system provides.",
  "all models, states, surveys, masks, windows, generators and system entropies",
  "the claim is that a hidden input has no influence; a test sees one value of it",
  ["src/lightcurvelynx/simulate.py:simulate_lightcurves", "src/lightcurvelynx/astro_utils/noise_model.py:apply_noise", "src/lightcurvelynx/effects/white_noise.py:WhiteNoise"])
p("C93", "Constant dimming multiplies the flux by the flux fraction",
  "A ConstantDimming effect added to a model without effects, in either frame, or in the observer frame to any model, multiplies the flux at every time and wavelength (and every bandflux) by flux_fraction, drawing no random numbers; a missing flux_fraction raises ValueError.",
  "all models, redshifts, flux fractions, times, wavelengths and filters",
  "holds for every model, frame and redshift; a test fixes one",
  ["src/lightcurvelynx/effects/basic_effects.py:ConstantDimming"])
p("C94", "A supernova is placed at its physical separation from its host",
  "SNCoordGivenPhysicalSep places each supernova at the end of a great circle arc that starts at its own host with bearing 2 pi u (u its own uniform draw) and whose angle times the angular diameter distance at its own redshift is its own physical separation; coordinates are in [0,360) and [-90,90]; the draws come from the generator passed to the call; one sample gives numbers; any constant is accepted for the cosmology.",
  "all hosts, separations, redshifts, cosmologies, draws and numbers of samples",
  "spherical trigonometry at every point of the sky, poles included",
  ["src/lightcurvelynx/astro_utils/snia_utils.py:SNCoordGivenPhysicalSep", "src/lightcurvelynx/astro_utils/snia_utils.py:DistModFromRedshift.__init__"])
p("C95", "Brightness follows the inverse square law of the luminosity distance",
  "The distance modulus of DistModFromRedshift determines the luminosity distance and grows with it, and the amplitude X0FromDistMod computes from it times the square of the luminosity distance does not depend on the redshift.",
  "all cosmologies, redshifts and SALT parameters",
  "an identity between two nodes for all real redshifts",
  ["src/lightcurvelynx/astro_utils/snia_utils.py:DistModFromRedshift", "src/lightcurvelynx/astro_utils/snia_utils.py:X0FromDistMod"])
p("C96", "The distance of a model follows its redshift",
  "A physical model built with a redshift, a cosmology and no distance has, in every sampled state, the cosmology's luminosity distance of the redshift of the same sample as its distance, also when the redshift is drawn or set later; a given distance is used as it is; without a distance, and without a redshift or a cosmology, the distance is None. This holds for every model class and all its keyword arguments.",
  "all programs that build the graph before and after, sources of the redshift, cosmologies, numbers of samples and sampling calls",
  "the graph around the model, the source of the redshift and the later calls are arbitrary",
  ["src/lightcurvelynx/models/physical_model.py:BasePhysicalModel.__init__", "src/lightcurvelynx/astro_utils/redshift.py:RedshiftDistFunc", "src/lightcurvelynx/models/snia_host.py:SNIaHost"])
p("C97","A wrapped sncosmo model is repeatable and follows the sampled parameters",
"A SncosmoWrapperModel owns a mutable sncosmo source whose parameters are overwritten at every sampling and evaluation. Still, the spectrum of a sampled state never depends on what was sampled or evaluated before: it is the source's F_lambda at phase t - t0, at the state's values of the source parameters the user named and at the source's own values for all others, converted to nJy; outside the source's wavelength range it goes through the model's extrapolation (zero without one). set() of source parameters is read back by get(); a rejected set() leaves the model usable.",
"every source, every set of named parameters, every history of sampling and evaluation calls (raising or not), every state, times and wavelengths",
"The hazard is stale shared state: a test sees a few call orders, the property ranges over all histories including failing calls.",
["src/lightcurvelynx/models/sncomso_models.py: SncosmoWrapperModel.compute_sed, _update_sncosmo_model_parameters, _sample_helper, set, get"])
p("C98","An LCLIB table becomes the template it describes",
"LightcurveTemplateModel/LightcurveData built from a LCLIB table: only the observation rows (type S) make up the curve, magnitudes are converted to nJy, the first template row (type T) gives the flux outside the observations (zero if there is none), and time zero is the forced reference epoch or else the first observation. A table marked periodic repeats with the length of its cycle, closed by a return to the first flux one average step later unless every filter already ends where it starts. Tables without time column, without a wanted filter, with an unknown recurrence class or without observations raise ValueError.",
"every rectangular LCLIB table, every requested filter list, every reference epoch, all evaluation times",
"Masking, wrapping and the reference epoch interact; a test checks one file, the property ranges over all tables and times.",
["src/lightcurvelynx/models/lightcurve_template_model.py: LightcurveData.from_lclib_table, _validate_period, evaluate"])
p("C99","A multi-template model is the template it selected",
"In every state, MultiLightcurveTemplateModel behaves as the single template with the number selected_lightcurve: compute_bandflux gives that template's curve at t - t0 (ValueError for a filter it has no curve for), the baseline_f parameters are that template's fluxes outside its observations, and the spectrum, integrated through any filter of the model, gives the same bandfluxes (zero in filters only other templates have). from_lclib_file makes one template per table in file order, with its own reference epoch; a list of epochs of the wrong length is a ValueError.",
"every list of curve sets, every passband group, every selected number, times, filters and t0; every list of LCLIB tables and epochs",
"Which template is selected is random per sample, and the spectra come from a basis shared by all templates' filters; a test sees a few draws.",
["src/lightcurvelynx/models/lightcurve_template_model.py: MultiLightcurveTemplateModel"])
p("C100","Positions sampled around survey pointings stay in the field of view","ObsTableRADECSampler takes whole rows of the survey table (the next ones in order, or random ones), keeps their times, and returns positions whose separation on the sky from the row's pointing is at most the radius; the radius is the one given or else the survey's, and a missing or negative radius is rejected.","every table, radius, order, random draw, number of samples and position of the cursor","the separation bound is a statement about spherical geometry for every pointing and draw; tests check a few coordinates near the equator",["src/lightcurvelynx/math_nodes/ra_dec_sampler.py:ObsTableRADECSampler","src/lightcurvelynx/math_nodes/given_sampler.py:TableSampler"])
p("C101","A survey table survives a parquet file","An observation table written with write_parquet and read with from_parquet has the same columns, index labels and survey values, lists the filters of its rows and answers every search as before; an existing file is not overwritten unless asked, and a missing one is reported.","every table of a class after any history of row filtering, added columns and settings","it ranges over all tables and histories of operations; tests write one small table",["src/lightcurvelynx/obstable/obs_table.py:ObsTable.write_parquet","src/lightcurvelynx/obstable/obs_table.py:ObsTable.from_parquet"])
p("C102","A survey table survives a database","An observation table written with write_db and read with from_db keeps all its columns, answers every search as before with the same radius, and leaves other tables of the file alone; an existing table is refused unless overwriting is requested; saving and loading can be repeated.","every table of a class after any history of operations, every database content","it ranges over all tables, databases and numbers of cycles; tests do one cycle on one table",["src/lightcurvelynx/obstable/obs_table.py:ObsTable.write_db","src/lightcurvelynx/obstable/obs_table.py:ObsTable.from_db"])
p("C103","A redback model is the source it wraps","A redback wrapper takes each source parameter from the dictionary it is given and otherwise from the priors, refuses names given twice, and its spectrum is the source's flux density at the times counted from t0 and at its sampled parameter values, in nJy, with no redshift applied by the model; outside the source's wavelengths the extrapolation of the model applies.","every source function, set of parameters, sampled state, times and wavelengths","it ranges over all source functions, parameter sets and wavelengths; tests wrap one or two fixed sources",["src/lightcurvelynx/models/redback_models.py:RedbackWrapperModel","src/lightcurvelynx/models/physical_model.py:SEDModel.compute_sed_with_extrapolation"])
p("C104","Random surveys look like surveys","A randomly created LSST or ZTF survey of n observations succeeds for every positive n, has n rows at positions uniform in area on the sky, with filters, depths and zero points that belong together, is the same for the same seed, and random data can be added as a new column.","every number of observations, seed and outcome of the random generator","it ranges over all outcomes of the generator; tests sample one seed",["src/lightcurvelynx/obstable/opsim.py:create_random_opsim","src/lightcurvelynx/obstable/opsim.py:opsim_add_random_data","src/lightcurvelynx/obstable/ztf_obstable.py:create_random_ztf_obs_data"])
p("C105","Extinction is looked up at each object's own position","A node that wraps a dust map gives each sample the (converted) value of the map at its own position, right ascensions meaning the same modulo 360 degrees, and refuses missing coordinates, a missing map and impossible declinations; the map's files, once fetched, are found again.","every map and conversion that act position by position, every number of samples and sampled positions","it ranges over all maps, sample counts and positions; tests use two hemispheres and few points",["src/lightcurvelynx/astro_utils/dustmap.py:DustmapWrapper","src/lightcurvelynx/astro_utils/dustmap.py:ConstantHemisphereDustMap","src/lightcurvelynx/astro_utils/dustmap.py:SFDMap"])
p("C106","A Roman survey table describes the plan it is made from","A table made from a Roman observing plan has the plan's rows; each row gets the zero point, pixel count and background rates of its own filter, the exposure time of its own MA table number and a time that follows the order of the passes; unknown filters and numbers are reported; the plan itself is left alone, an MA table may be given, and the table can be saved and read again.","every plan, all characterisation tables, every order and repetition of passes and filters","it ranges over all plans and characterisation tables; tests use one small plan and the real tables",["src/lightcurvelynx/obstable/roman_obstable.py:RomanObsTable","src/lightcurvelynx/obstable/roman_obstable.py:_get_ma_table","src/lightcurvelynx/obstable/obs_table.py:ObsTable.from_parquet"])
p("C107","The flux of an eclipsing binary is that of two black-body spheres on a circular orbit",
"For every detached EclipsingBinaryStar, every time and every wavelength, compute_sed returns the flux density of two black bodies with uniform discs: the Planck intensity of each star times the area of the sky on which it is seen (its disc, without the part covered by the nearer star's disc), divided by the square of the distance, in nJy; the orbit is circular with the given semiaxis, inclination and period and at t0 the secondary is in front. The lengths are in the units documented (AU, solar radii). The luminosity of a black body grows with the square of the radius, grows with the temperature at every wavelength and obeys Wien's displacement law; a negative temperature or a missing distance is an error.",
"all temperatures, radii, semiaxes, inclinations between 0 and 180 degrees, periods, epochs, distances, times and wavelengths",
"The eclipse geometry is a piecewise formula over five real parameters with degenerate cases (tangent and concentric discs, quadrature); tests check one binary, given in cm.",
["src/lightcurvelynx/astro_utils/black_body.py:black_body_luminosity_density_per_solid","src/lightcurvelynx/models/periodic_variable_star.py:EclipsingBinaryStar._dl_dnu_domega_phases","src/lightcurvelynx/models/periodic_variable_star.py:PeriodicVariableStar._evaluate_phases"])
p("C108","The number of type Ia supernovae per redshift bin approximates the volumetric rate integrated over the comoving volume",
"For every redshift range from 0 upwards, every matter density, Hubble constant, solid angle and number of bins n, num_snia_per_redshift_bin returns n numbers and the n middles of equal bins; each number differs from the expected number (rate of Frohmaier et al. times comoving volume of a flat universe, in units of h70) by at most C/n^3 and their sum from the expected number in the whole range by at most C/n^2; the numbers do not depend on the Hubble constant, are proportional to the solid angle (the whole sky if none is given) and positive. A negative matter density or a number of bins below -1 raises ValueError.",
"all redshift ranges, matter densities, Hubble constants, solid angles, numbers of bins",
"A statement about an integral over a continuum of cosmologies and all bin numbers; tests compare a few totals with stored values.",
["src/lightcurvelynx/astro_utils/snia_utils.py:num_snia_per_redshift_bin","src/lightcurvelynx/astro_utils/snia_utils.py:snia_volumetric_rates"])
p("C109","The supernova example simulates every observation in the lifetime of each sampled supernova, reproducibly",
"run_snia_end2end returns one result per sampled supernova, in order; the number is the one asked for or the expected number in the solid angle rounded down. Each result holds exactly the observations of the survey within 1.75 degrees and from 20 days before to 50 days after t0 (stretched by 1+z), in the order of the table, with their times and filters, and one perfect flux, error and noisy flux per observation. With a generator given, the results are a function of it.",
"all observation tables (also filtered ones), sources, samples, generators",
"Selection must hold for every table and position; reproducibility is a statement about pairs of runs with different entropy.",
["src/lightcurvelynx/example_runs/simulate_snia.py:run_snia_end2end","src/lightcurvelynx/example_runs/simulate_snia.py:draw_single_random_sn"])
p("C110","simulate_lightcurves measures the source's spectrum","For a model whose observer-frame spectrum is H(t, w), every entry of an object's lightcurve is one observation matching the object's position and time window, in order of survey and row, and records that row's time and filter, the trapezoid integral of H at that time against that survey's passband of that filter as flux_perfect, the error which that row's own conditions (exposure, seeing, sky, zero point, read noise, dark current) give for that flux, and flux_perfect plus that error times a standard normal number, each number of the generator being used once in order. A redshifted model has H = (1+z) times the source spectrum at source-frame time and wavelength. On sound survey tables with positive zero points and non-negative spectra the simulation always succeeds.","every SED model, every number of objects, surveys (OpSim, ZTF, Roman), rows and filters, every random stream, offsets present or absent","Tests check each stage on one example; that the stages compose without mixing up rows, filters, surveys, errors or random numbers must hold for every table and stream.",["src/lightcurvelynx/simulate.py:simulate_lightcurves","src/lightcurvelynx/models/physical_model.py:SEDModel.evaluate_bandfluxes","src/lightcurvelynx/astro_utils/noise_model.py:poisson_bandflux_std","src/lightcurvelynx/obstable/opsim.py:OpSim.bandflux_error_point_source"])
p("C111","A passband file is loaded faithfully","Loading a transmission table from a file gives the file's rows, in order, with wavelengths converted to Angstroms from the units that were given (for text files) or that the file states (for VOTables), exactly when the file exists, has a known suffix and parses, its unit is known and its wavelengths increase; Passband.from_file then makes the same passband as giving those rows and units directly. Files with other shapes, units or suffixes, and wavelengths that do not increase, are reported with an error that says so.","all files (number of rows, columns, units, suffixes), paths, steps, trimming quantiles","the statement is about every table a file can hold and an exact characterisation of success; tests load a few files",["src/lightcurvelynx/astro_utils/passbands.py:Passband.load_transmission_table","src/lightcurvelynx/astro_utils/passbands.py:Passband.from_file"])
p("C112","Downloads keep existing files, fetch missing ones and refresh on demand","A data file that exists is used as it is, without the network, unless force_download is given; a missing file is fetched from its URL and stored at its path, or an error is raised and nothing is stored; no other file changes; force_download=True replaces the file by what the URL has; OpSim.from_url reads the data of the URL it is given.","all disks, URLs, network contents and sequences of calls","it quantifies over histories of the disk and over what the network has at each moment",["src/lightcurvelynx/utils/data_download.py:download_data_file_if_needed","src/lightcurvelynx/obstable/opsim.py:OpSim.from_url"])
p("C113","A group read from a directory holds the directory's passbands","PassbandGroup.from_dir gives a group with one passband per file of the directory (of the filters asked for), named after directory and file, made from that file with the given step, trimming and units; it does not depend on the order in which the operating system lists the directory or on whether the path is absolute, changes no file, and succeeds whenever there is a file and every file can be read.","all directories, listings in every order, filters, relative and absolute paths","independence of the listing order is a statement about all permutations; tests see one order and absolute paths",["src/lightcurvelynx/astro_utils/passbands.py:PassbandGroup.from_dir"])
p("C114","Preset passbands are the survey's own, with the requested processing","A preset group (LSST, ZTF, Roman) holds exactly the survey's filters (of those asked for), each made from its own table (file of the table directory, sncosmo bandpass, or column of the Roman effective area table, in the table's units) with the requested step and trimming; a filter of the SVO service is read from or downloaded to its own file and named after survey and filter; files that exist are kept and the keyword arguments documented are accepted.","all table contents, directories, filter lists, steps, trimming quantiles, units and download flags","it ranges over all table contents and keyword arguments; tests use mocked tables and defaults",["src/lightcurvelynx/astro_utils/passbands.py:PassbandGroup.from_preset","src/lightcurvelynx/astro_utils/passbands.py:_lsst_load_preset","src/lightcurvelynx/astro_utils/passbands.py:_roman_load_preset","src/lightcurvelynx/astro_utils/passbands.py:Passband.from_sncosmo","src/lightcurvelynx/astro_utils/passbands.py:Passband.from_svo"])
p("C115","A passband group uses each passband's own parameters, then the group's","A PassbandGroup made from passbands and parameter dictionaries holds the given passbands unchanged and, for each dictionary, the passband loaded with the dictionary's own value of each parameter, the group's keyword argument where the dictionary has none, and the default where neither has; of several passbands with one full name the last is kept; files that exist are not changed.","all lists of passbands and dictionaries, all keyword arguments, all disks","the precedence must hold for every combination of present and missing entries and any list length",["src/lightcurvelynx/astro_utils/passbands.py:PassbandGroup.__init__"])
p("C116","After seeding, a node's values depend only on the seed and its own calls","Once a random node has been given a seed (to its constructor or by set_seed), the values of its following calls are a function of the seed and of the parameters and sample counts of those calls: no earlier history, no other node, seed or call in between, and no call of its own with an explicit generator changes them; two nodes with one seed give the same values for the same calls however they are interleaved.","all sessions: any number of nodes of any kind, every interleaving of creations, seedings and calls","it is a statement about all histories and pairs of histories; a test sees one",["src/lightcurvelynx/math_nodes/np_random.py:NumpyRandomFunc.set_seed","src/lightcurvelynx/math_nodes/scipy_random.py:NumericalInversePolynomialFunc.set_seed","src/lightcurvelynx/math_nodes/distribution_sampler.py:DistributionSampler.set_seed","src/lightcurvelynx/math_nodes/bilby_priors.py:BilbyPriorNode.set_seed"])
p("C117","Objects are simulated independently of each other","simulate_lightcurves gives an object the same observations, times, filters, noise-free fluxes, errors and saved columns whatever other objects are simulated with it, wherever it stands among them and whatever the random generator (for models that draw no random numbers while being evaluated); and simulating the objects in two batches, handing the generator on, gives exactly the lightcurves of simulating them together, noise included.","every model, every list of sampled objects, every split of the list, any surveys, windows, masks and saved columns, and every state of the generator","a test compares a few batches; this is about every split and every company an object can be in",["src/lightcurvelynx/simulate.py:simulate_lightcurves","src/lightcurvelynx/obstable/obs_table.py:ObsTable.range_search"])
p("C118", "The example's supernovae are consistent with their hosts",
  "Whenever the parameters of the source built by `construct_snia_source` are sampled, for any number of samples and any state of the generators, the call succeeds and, sample by sample, host and supernova have the same redshift; the distance modulus is that of this redshift; source and brightness function have the same stretch and colour; the stretch comes from the distribution for the mass of this host; the brightness x0 obeys the Tripp relation for these values; the peak time lies between the first and the last observation; and the supernova's position is its host's position plus a normal offset of 0.01 degrees.",
  "all observation time ranges, redshift and stretch distributions, cosmologies, numbers of samples, random draws and generator states",
  "a graph of fourteen nodes with shared subexpressions is sampled in an order fixed by the traversal; a test looks at a few seeds, and a parameter drawn twice instead of shared looks plausible in each",
  ["src/lightcurvelynx/example_runs/simulate_snia.py: construct_snia_source", "src/lightcurvelynx/astro_utils/snia_utils.py: X0FromDistMod, HostmassX1Func, DistModFromRedshift", "src/lightcurvelynx/base_models.py: ParameterizedNode.sample_parameters"])
p("C119","A whole run of simulate_lightcurves: graph of parameters to results table","simulate_lightcurves(model, n, obstables, passbands, param_cols=...) samples the model's graph once with n samples (all surveys see the same objects) such that every parameter satisfies its defining equation; the results have one row per sample, whose ra, dec, t0, z are the model's values in that sample, whose params is the dictionary of all sampled parameters and whose requested parameter columns (node.param, the dot replaced by an underscore) hold that parameter in that sample; nobs is the number of observations that match the object in space and time over all surveys, and the nested lightcurve holds exactly these, each measuring the spectrum of that sample with the next random number. With sampled numbers, existing parameters and sound surveys the run succeeds. Two requested parameters whose names agree after the replacement share one column: only the last is kept.","every graph, root, number of samples, surveys, passbands, parameter columns, time window, generator state and random function","the run composes sampling, iteration over samples, column building, matching and photometry over arbitrary graphs, samples and surveys; a test checks the columns of one model",["src/lightcurvelynx/simulate.py:simulate_lightcurves","src/lightcurvelynx/graph_state.py:GraphState","src/lightcurvelynx/base_models.py:ParameterizedNode.sample_parameters"])
p("C120","Equality of GraphStates","s == t is True exactly when the two states have the same number of samples, the same nodes, the same parameters with values np.allclose accepts, and the same fixed parameters, whatever the order of the calls that built them; for states that hold numbers only the comparison always answers and a state equals itself and its copy. It raises TypeError for states that hold a None parameter and is not symmetric.","all pairs of reachable states","the histories that build the two states are unbounded, and the tests compare states of a few numbers built in the same order",["src/lightcurvelynx/graph_state.py:GraphState.__eq__","src/lightcurvelynx/graph_state.py:GraphState.copy"])
p("C121","GraphStates kept in files","A state of several samples written with save_to_file and read with from_file has the same number of samples and the same parameters with the same values, and equals the original if nothing was fixed; an existing file is replaced only with overwrite=True (otherwise OSError, no file changes) and no other file changes. Fixed marks are lost, and a state of one sample cannot be saved.","all reachable states, file contents and paths","holds for every history of the state and every content of the directory; the test saves one state",["src/lightcurvelynx/graph_state.py:GraphState.save_to_file","src/lightcurvelynx/graph_state.py:GraphState.from_file","src/lightcurvelynx/graph_state.py:GraphState.from_table"])
p("C122","A supernova survey measures the supernovae that were drawn",
"For the supernova example (construct_snia_source) given to simulate_lightcurves with any number of samples and any surveys: every simulated object has one redshift (shared with its host), peak time, stretch, colour and position, its brightness parameter follows from the luminosity distance of that redshift, that stretch and that colour, and every entry of its lightcurve is the bandflux, in that observation's passband and with that observation's noise, of the source spectrum with exactly these parameters at rest-frame phase (t - t0)/(1 + z) and wavelength w/(1 + z), times (1 + z), converted to nJy, and zero outside the source's wavelength range. On sound surveys the whole run succeeds.",
"every number of samples, every stream of random numbers, every sncosmo source with the SALT parameters, every list of surveys and time window",
"it composes parameter sampling, the sncosmo wrapper, redshifting, extrapolation, passbands, the survey tables and the noise, over all samples and random streams; a test sees one seed",
["src/lightcurvelynx/example_runs/simulate_snia.py: construct_snia_source","src/lightcurvelynx/simulate.py: simulate_lightcurves","src/lightcurvelynx/models/sncomso_models.py: SncosmoWrapperModel.compute_sed"])
p("C123","A SALT2 model read from a directory shows the spectrum of its files","If the two template files hold the tables of grids with at least three phases and three wavelengths and the colour-law file a law, constructing the SALT2 model succeeds, and for every x0, x1, c, redshift and t0 the model shows (1+z) times the nJy equivalent of x0 (M0 + x1 M1) 10^(-0.4 c CL) with the templates in units of 1e-12 erg/s/cm^2/AA, interpolated at the source-frame phase and wavelength (the tabulated value at table points of axes whose steps are all equal or somewhere differ by more than 1e-6, zero outside, exact for bilinear tables on regular axes); wavelength extrapolation plays no role; missing files and tables that are not such grids are rejected","all directories, tables, colour laws, parameters, redshifts, times and wavelengths","the spectrum is a function on a continuum fed from arbitrary tables; a wrong scale, unit or axis order may be hidden at any tested point by normalisation in the test data",["models/salt2_jax.py:SALT2JaxModel","utils/bicubic_interp.py:BicubicInterpolator.from_grid_file"])
p("C124","A static spectrum read from a file or from synphot shows that spectrum","A spectrum written as a two-column array and loaded with from_file gives a model that shows that spectrum at all times and redshifts; a file that is not such an array is rejected; from_synphot shows, at the sampled wavelengths, the photon flux of the synphot model times the photon energy as a flux density in nJy, and rejects models that are not in the rest frame","all spectra, paths, file formats, synphot models, redshifts, times and wavelengths","round trips and conversions must hold for every table and suffix, and for models in any frame",["models/static_sed_model.py:StaticSEDModel.from_file","models/static_sed_model.py:StaticSEDModel.from_synphot"])
p("C125","Effects in a survey multiply the spectrum in their own frame",
"After any sequence of add_effect calls with effects that scale the flux (ConstantDimming, ExtinctionEffect inside the law's wavelength range, Microlensing), the observed spectrum at time t and wavelength w is the product of the observer-frame factors at (t, w), 1+z, the rest-frame factors at the source's time and wavelength, and the source's own spectrum there, whatever the order in which the effects were added. In a complete simulate_lightcurves run of a source with host dust and microlensing, in any surveys and with any parameter graph, every recorded flux_perfect is the band integral of exactly that product with the parameters of its own sample, and the noise is that of its own observation.",
"all models without effects, all lists of effects, all redshifts, parameter graphs, samples, surveys, passbands, times and wavelengths",
"Tests check one effect at a time on one spectrum; the claim is about all combinations, frames, redshifts and whole runs.",
["src/lightcurvelynx/models/physical_model.py:SEDModel.add_effect","src/lightcurvelynx/models/physical_model.py:SEDModel._evaluate_single","src/lightcurvelynx/effects/extinction.py:ExtinctionEffect.apply","src/lightcurvelynx/effects/microlensing.py:Microlensing.apply","src/lightcurvelynx/simulate.py:simulate_lightcurves"])
p("C126", "Any source, single or composite, has its own flux in a survey",
  "simulate_lightcurves of any physical model - an SED model, a bandflux model, an additive or random composite of such models - records, for every sample and every matching observation, exactly the flux the model should have in that filter at that time in that sample: the band integral of the observed spectrum; what the bandflux model computes times its effects; the weighted sum of the objects' fluxes times the composite's own effects; the flux of the selected object times the composite's own effects. Composites may be nested.",
  "all models of any nesting depth with any numbers of objects, weights and scaling effects; all parameter graphs; all surveys, numbers of samples and noise draws",
  "The fluxes pass through grouping by filter, recursion over the objects, effects, sampling of several graphs and the survey loop; a test fixes one composite, one graph and a few visits.",
  ["src/lightcurvelynx/models/multi_object_model.py:AdditiveMultiObjectModel", "src/lightcurvelynx/models/multi_object_model.py:RandomMultiObjectModel", "src/lightcurvelynx/models/physical_model.py:BandfluxModel", "src/lightcurvelynx/simulate.py:simulate_lightcurves"])
p("C127","ZTF tables survive being saved","A ZTF observation table without a date column, written to a parquet file or to a database, is read back with the same columns, the same survey values and the same search results. The code fails this for tables made from dates, and for default table names.","every ZTF table after any history of changes, every file or database it is written to, every conversion of dates","the files and the histories of the table are unbounded, and the failure is in the combination of the constructor with the file, not in either",["src/lightcurvelynx/obstable/ztf_obstable.py:ZTFObsTable.__init__","src/lightcurvelynx/obstable/ztf_obstable.py:ZTFObsTable.from_db","src/lightcurvelynx/obstable/obs_table.py:ObsTable.write_db","src/lightcurvelynx/obstable/obs_table.py:ObsTable.write_parquet","src/lightcurvelynx/obstable/obs_table.py:ObsTable.from_parquet"])
p("C128","A copy of a graph state shares no arrays","A copy of a graph state is deep: whatever a program does afterwards without naming the copy, including in-place writes into arrays it holds, the copy shows what it showed, and whatever it does with the copy, the original does; a parameter set with force_copy does not follow later writes into the array it was set from. Apart from in-place writes, states behave as if arrays were values.","every reachable memory, every state, every later program of any length (arrays, lists, views, writes, sets, updates, copies, samples, nodes)","a copy that shares one array looks right in every test that does not write into that array in place, through one of the many ways a program can come to hold it",["src/lightcurvelynx/graph_state.py:GraphState.copy","src/lightcurvelynx/graph_state.py:GraphState.set","src/lightcurvelynx/graph_state.py:GraphState.update","src/lightcurvelynx/graph_state.py:GraphState.extract_single_sample"])
p("C129","A list sampler keeps its values","The values a GivenValueList gives are those it was made from, whatever a program does with the arrays it was made from and with the values sampled from it.","every reachable memory, every list or array, every later program of any length","the node shares its array with the caller and with every state sampled from it; only a write through one of them, followed by a reset, shows it",["src/lightcurvelynx/math_nodes/given_sampler.py:GivenValueList.__init__","src/lightcurvelynx/math_nodes/given_sampler.py:GivenValueList.compute","src/lightcurvelynx/graph_state.py:GraphState.set"])
p("C130","Passbands shared between groups",
"A PassbandGroup keeps the Passband objects it is given. Whatever calls a program makes on passbands and on groups that share them, raising calls included: every call on a group acts on what it shows as if the group had its own copies; a call elsewhere that reprocesses none of its passbands changes nothing of it; lookups and the band fluxes of every model evaluated through the group are those of a group built now from its members; and the group's own fluxes_to_bandflux(es) are those of its passbands as they are now.",
"every history of Passband constructions, PassbandGroup constructions, add_passband, process_transmission_tables and process_transmission_table calls, over any number of passbands and groups and any sharing between them",
"the histories and the sharing patterns are unbounded; tests build one group from its own passbands",
["src/lightcurvelynx/astro_utils/passbands.py:PassbandGroup.__init__","src/lightcurvelynx/astro_utils/passbands.py:PassbandGroup.add_passband","src/lightcurvelynx/astro_utils/passbands.py:PassbandGroup.process_transmission_tables","src/lightcurvelynx/astro_utils/passbands.py:Passband.process_transmission_table","src/lightcurvelynx/models/physical_model.py:SEDModel._evaluate_bandfluxes_single"])
p("C131","Light curves and the caller's dictionary of baselines",
"A LightcurveData built from a dictionary of baselines has the values of the dictionary at that moment (converted when the data is in magnitudes), and keeps its fluxes whatever the program does afterwards with its own dictionary or with other light curves.",
"every history of dictionary creations, writes to dictionaries and LightcurveData constructions (any data, periodic or not, in fluxes or magnitudes, with or without a dictionary, raising or not)",
"the histories and the sharing of dictionaries are unbounded; tests build one light curve from a literal dictionary",
["src/lightcurvelynx/models/lightcurve_template_model.py:LightcurveData.__init__","src/lightcurvelynx/models/lightcurve_template_model.py:LightcurveData.evaluate_sed"])
p("C132","A simulation does not depend on the calendar",
"If every visit of every survey and every time parameter of every object (t0, and t1 of a step, microlensing_t0 of a lens) are moved by the same number of days, simulate_lightcurves gives the same objects, matched visits, band fluxes, errors, noise, saved columns, random state and exceptions, with the reported times moved by that number of days. This holds with any redshifts, effects, time windows and survey kinds, for constant, step, sine, linear, galaxy, static, spline (with a t0), SALT2, sncosmo, periodic and template models, and for any model whose band fluxes do not change when times and object are moved together.",
"all shifts, models of the listed kinds with any listed effects, sampled states, surveys, time windows, saved columns other than the times, random streams",
"A relation between two whole simulations for every real shift and every input; a test compares two literals.",
["src/lightcurvelynx/simulate.py:get_time_windows","src/lightcurvelynx/simulate.py:simulate_lightcurves","src/lightcurvelynx/obstable/obs_table.py:range_search","src/lightcurvelynx/models/physical_model.py:SEDModel._evaluate_single","src/lightcurvelynx/astro_utils/redshift.py:obs_to_rest_times_waves"])
p("C133","Narrowing a survey only drops observations","For a model without randomness of its own: filtering the rows of the survey tables (`filter_rows`), a smaller search radius, a narrower `time_window_offset`, a detector footprint, or leaving out the last surveys changes `simulate_lightcurves` only by dropping observations. For every object, the times, filters, noise-free fluxes, flux errors and survey numbers of the narrower simulation are those of the wider one with exactly the excluded observations removed, in the same order (only the noise, drawn from the generator in order of use, may differ). A sound LSST table stays sound under filtering, even to no rows, so the narrower simulation succeeds too.","every deterministic model, list of objects, list of surveys (OpSim, ZTF, Roman), mask, radius, window, footprint and random state for which both simulations succeed","tests compare a filtered and an unfiltered simulation on one small table; the relation must hold for every mask, position and survey",["src/lightcurvelynx/simulate.py:simulate_lightcurves","src/lightcurvelynx/obstable/obs_table.py:ObsTable.filter_rows","src/lightcurvelynx/obstable/obs_table.py:ObsTable.range_search","src/lightcurvelynx/obstable/obs_table.py:ObsTable.set_detector_footprint"])
p("C134","Choice samplers and the caller's arrays","A `GivenValueSampler` keeps the values and (normalised) weights it was built with, whatever is done afterwards, and building it leaves the caller's arrays as they were. The first holds for samplers built from lists under every history, and for samplers built from arrays as long as the caller does not assign to these arrays, even if more samplers are built from them. Not so in the code otherwise: the sampler shares the arrays with the caller and divides the weights in place, so the caller's weights array is changed, a later assignment to it makes every sample raise ValueError, and an assignment to the values array changes what is sampled.","every history of array creations, assignments and sampler constructions","tests build one sampler from a literal; sharing is only visible in histories with several users of one array",["src/lightcurvelynx/math_nodes/given_sampler.py:GivenValueSampler.__init__","src/lightcurvelynx/math_nodes/given_sampler.py:GivenValueSampler.compute"])
p("C135","Simulated objects do not depend on each other","If one and the same object (parameter values and position) is simulated in two calls of simulate_lightcurves with the same surveys, its times, filters, noise-free fluxes, errors and survey numbers are identical, whatever other objects are simulated with it, at whatever place it stands, and whatever random numbers are drawn.","all SED and bandflux models whose fluxes are determined by filter, time and state; all lists of objects, places, surveys, time windows, saved columns and generators","Tests simulate a few fixed sets of objects; independence is a statement about all companions and all generators.",["src/lightcurvelynx/simulate.py:simulate_lightcurves"])
p("C136","How visits are arranged in tables does not matter","If two lists of surveys hold the same visits (rows with the same values, survey values, passbands and footprint), each as often, then every object gets the same measurements (time, filter, noise-free flux, error), up to order. Giving the surveys in another order, putting the rows of a table in another order, joining two tables or splitting a table in two with filter_rows are such rearrangements.","all arrangements of the visits in surveys and rows, all objects, models, windows and generators","A test compares one arrangement with one other; the claim ranges over all permutations, splits and joins of all tables.",["src/lightcurvelynx/simulate.py:simulate_lightcurves","src/lightcurvelynx/obstable/obs_table.py:filter_rows,range_search"])
p("C137","A model asked directly answers sample by sample","evaluate_sed and evaluate_bandfluxes, called on a GraphState with any number of samples, return one array for one sample and otherwise a stack whose entry k is the answer for extract_single_sample(k) alone (with random generators handed on from sample to sample); without a state they sample the graph once and answer for that sample; for models that draw nothing the bandflux of a sample in a visit is the integral of that sample's spectrum through the visit's passband, and further keywords reach the computation of the spectrum.","every model, graph, sampled state, number of samples, times, wavelengths, filters and passbands","the number of samples and the parameter values are unbounded; a test compares a few stacks",["src/lightcurvelynx/models/physical_model.py:evaluate_sed","src/lightcurvelynx/models/physical_model.py:evaluate_bandfluxes","src/lightcurvelynx/models/physical_model.py:_evaluate_bandfluxes_single"])
p("C138","It is the place on the sky that counts","Searches (range_search, is_observed) and simulate_lightcurves depend on where an object is, not on how its coordinates are written: adding whole turns to its RA, or changing the RA of an object at a pole, changes no answer, error, lightcurve or random draw, with or without a detector footprint; turning every pointing and every object by the same angle in RA changes no match; a larger radius (up to 180 degrees) finds every visit a smaller one finds.","every table, footprint, position, number of turns, angle, radius, time bound, model and list of surveys","right ascensions are real numbers and wrap anywhere; a test tries a few near 0 and 360",["src/lightcurvelynx/obstable/obs_table.py:range_search","src/lightcurvelynx/astro_utils/detector_footprint.py:rotate_to_center","src/lightcurvelynx/simulate.py:simulate_lightcurves"])
p("C139","Positions drawn from a survey's coverage map are positions the survey sees","A coverage map built with build_moc and sampled with ApproximateMOCSampler (directly or through a file) gives positions within the search radius of a pointing, up to the inaccuracy of the map and the size of a pixel of the coarser of the two orders, and the survey itself, asked with a radius enlarged by that much, says they are observed; every position within the radius can be drawn, and every finest pixel is given by exactly one outcome of the draws, so none is preferred; a missing radius, impossible declinations and orders and a missing file are refused.","every survey table, radius, order of the map and of the sampler, number of samples and outcome of the generator, for every pixelisation that keeps the contract of the HEALPix libraries","it ranges over all tables, orders and outcomes; the tests build one map and check a few draws against it",["src/lightcurvelynx/obstable/obs_table.py:ObsTable.build_moc","src/lightcurvelynx/math_nodes/ra_dec_sampler.py:ApproximateMOCSampler"])
p("C140","Brighter sources are measured brighter","Two sources simulated over the same objects, surveys and generator have the same observations; the one that is fainter at all times and at all wavelengths of the passbands has at most the flux and at most the flux error of the other in every observation. The flux in a filter is an average of the spectrum over the filter's wavelengths: it lies between any bounds the spectrum keeps there.","every pair of models, all objects, surveys, windows and states of the generator, every observation","it compares all pairs of spectra over all surveys; a test compares the numbers of two runs",["src/lightcurvelynx/simulate.py:simulate_lightcurves","src/lightcurvelynx/astro_utils/passbands.py:Passband.fluxes_to_bandflux","src/lightcurvelynx/astro_utils/noise_model.py:poisson_bandflux_std"])
p("C141","An object can be examined again from its row of the results","After simulate_lightcurves has returned, the params dictionary in a row of the results contains everything about that object: GraphState.from_dict of it is a one-sample state that holds, for every node and parameter, the value the object was simulated with; any model asked for spectra or bandfluxes with that state gives the answer it gives for that sample of the run's own state; asked for the flux at the time and in the filter of any recorded observation, with the passbands of the survey the entry names, it returns exactly the recorded flux_perfect; and GraphState.from_list of the whole params column is again the sampled state of the run.","every parameter graph, model, number of objects, list of surveys, time window and random stream for which the simulation succeeds; every row, every entry of its lightcurve, every later request; every iteration order of the set of names","the dictionary passes through to_dict, the results table and from_dict, and the recorded fluxes were computed in batches with the other observations of the same survey: that they can be had again one by one has to hold for every graph and every table",["src/lightcurvelynx/simulate.py: simulate_lightcurves","src/lightcurvelynx/graph_state.py: GraphState.to_dict, from_dict, from_list, extract_single_sample","src/lightcurvelynx/models/physical_model.py: evaluate_bandfluxes, evaluate_sed"])
p("C142","From a simulation to its detections","The table simulate_lightcurves returns can be handed to results_augment_lightcurves, which then succeeds, for every model, graph, list of surveys and time window for which the simulation succeeded. The lightcurve of object k in the result has one entry per matching survey row, in order; every entry's snr, detection flag, magnitude and magnitude error are those of the measured flux and error of the simulated observation in that row; if all t0 are non-zero numbers, time_rel is the entry's time minus the t0 sampled for that very object; nothing else changes. results_drop_empty keeps exactly the objects with observations. The two can be composed in either order.","all graphs, sample counts, surveys, windows, saved and parameter columns, thresholds, random streams","every combination of sampled positions and survey rows determines which entries belong to which object; tests use hand-made nested frames of a few rows",["src/lightcurvelynx/simulate.py: simulate_lightcurves","src/lightcurvelynx/utils/post_process_results.py: results_augment_lightcurves, results_drop_empty"])
p("C143","Stepping through the samples of a state","Iterating over a GraphState never changes it. However many iterators over one state a program makes, however it interleaves advancing them with writes to the state, advancing an iterator for the (k+1)st time gives sample k of the state as it is at that moment, for every k below num_samples, and StopIteration afterwards; nested and parallel loops do not disturb each other. next(state), which the class also offers, steps through the samples in the same way.","all reachable states and all histories of writes, iterator creations and advances","the interleavings of writes and several iterators are unbounded; tests run single complete loops",["src/lightcurvelynx/graph_state.py: GraphState.__iter__, __next__, _iterate, extract_single_sample, set, update"])
p("C144","Any model, asked directly, answers as in a simulation","model.evaluate_bandfluxes works alike for SED models, bandflux models and composites. On a state of many samples it returns the answers for the single samples in order and leaves the graph alone; without a state it first samples one. If the model treats observations one by one (an SED model whose spectrum, extrapolation and effects do; a bandflux model whose computation and effects do; any additive or random composite of such), the answer for an observation in a sample is the one given for that observation and sample alone, whatever else is asked for, and no random numbers are drawn; and the flux_perfect a simulation recorded for any observation is had again by asking the model with the state restored from the row's params and the passbands of the survey the entry names.","every model built from such parts by any nesting of composites, all states, graphs, lists of times and filters, all surveys and time windows","it compares two code paths over every model, composition and batch; a test tries one model with a few observations and cannot show that no other batch changes an answer",["src/lightcurvelynx/models/physical_model.py: BasePhysicalModel.evaluate_bandfluxes","src/lightcurvelynx/models/physical_model.py: BandfluxModel.evaluate_bandfluxes","src/lightcurvelynx/models/multi_object_model.py: AdditiveMultiObjectModel, RandomMultiObjectModel","src/lightcurvelynx/simulate.py: simulate_lightcurves"])
p("C145","The recorded flux of a sum is the sum of the fluxes of its parts","For every observation a simulation of an AdditiveMultiObjectModel records, flux_perfect is the weighted sum of the fluxes its objects return from evaluate_bandfluxes when each is asked alone, for that time and filter, with the passbands of the survey the entry names and with the state restored from the row's params; if effects were added to the sum, it is that sum changed by those effects. Without effects nothing else enters: no object changes what another contributes.","every sum of objects (SED models, bandflux models, composites) that treat observations one by one, all weights and effects, graphs, surveys, time windows, every recorded observation","it relates a simulation to separate evaluations of every part over all compositions; a test adds up two objects in one case",["src/lightcurvelynx/models/multi_object_model.py: AdditiveMultiObjectModel","src/lightcurvelynx/simulate.py: simulate_lightcurves","src/lightcurvelynx/models/physical_model.py: BasePhysicalModel.evaluate_bandfluxes","src/lightcurvelynx/graph_state.py: GraphState.from_dict"])
p("C146","The spectrum of a BayeSN supernova","BayesnModel.compute_sed gives, for every time and wavelength, the template at the phase t - t0, times 10^(-0.4 W) with W the natural-spline surface of W0 + theta W1 there, dimmed by dust with the extinction Av and the ratio Rv, times Amplitude, converted from erg/s/cm2/AA to nJy. Every entry depends on its own time and wavelength only; the spectrum is proportional to Amplitude; Av = 0 means no dust; a wavelength outside the range of the extinction law raises ValueError, and a parameter without a value raises.","all model files with increasing knots, all parameter values, times and wavelengths, every extinction law","it fixes every entry of every spectrum; a test compares a few spectra with stored ones, at Rv near 3.1",["src/lightcurvelynx/models/bayesn.py: BayesnModel.compute_sed","src/lightcurvelynx/effects/extinction.py: ExtinctionEffect.apply","src/lightcurvelynx/astro_utils/unit_utils.py: flam_to_fnu"])
p("C147","A survey of a random mixture records, for each object, the model selected for it",
"In a simulation of a RandomMultiObjectModel, with pairwise different object names, every recorded flux of object k is the flux, in sample k, of the one model whose name was sampled as selected_object for that sample, times the factors of the mixture's own effects; the other models have no influence. The observations, counts and positions are those of the mixture's own parameters in sample k, and the noise is that of any other model. More generally a model some of whose sampled parameters are strings is surveyed with its strings.",
"every graph of parameters, list of models and names (without repetitions), effects, sampled selection, number of objects, surveys, passbands, columns, time windows and random stream",
"A test of the mixture evaluates the model in a state it made; whether the selection in each sample is the one used for that row of the results is a statement about the whole path from sampling to the table, for every selection.",
["src/lightcurvelynx/models/multi_object_model.py: RandomMultiObjectModel","src/lightcurvelynx/simulate.py: simulate_lightcurves"])
p("C148","Objects placed by a survey's coverage are observed by that survey",
"When a model's ra and dec come from an ObsTableUniformRADECSampler built from a survey table, then in a simulation of that survey (alone or with others, without a time window, the sampler's radius being at most the survey's) every object whose position the sampler accepted has at least one observation, so that every object has one unless max_iterations ran out; the position of object k is the k-th point of the sampler's single call. If the survey is the only one and the radii are equal, an object that the sampler could not place has no observation.",
"every survey table (with or without a detector footprint), radius, number of iterations, random stream, graph of parameters, model, number of objects and list of surveys",
"A test places a few objects and looks whether they are observed; that no draw, table or footprint lets an accepted position go unobserved needs the sampler's coverage test and the simulation's search to be compared for all of them.",
["src/lightcurvelynx/math_nodes/ra_dec_sampler.py: ObsTableUniformRADECSampler.compute","src/lightcurvelynx/obstable/obs_table.py: is_observed, range_search","src/lightcurvelynx/simulate.py: simulate_lightcurves"])
p("C149","Objects sampled around a survey's visits are observed by that survey",
"When a model's ra, dec and t0 come from an ObsTableRADECSampler built from a survey table (rows drawn at random, float columns), then each object gets one visit of the table: its t0 is that visit's time and its position is at most the sampler's radius from that visit's pointing on the sky. In a simulation of that survey (alone or with others, the sampler's radius being at most the survey's, no detector footprint or one that holds the disc of that radius, any time window with non-negative ends or none) every object is observed by that visit: its light curve has the measurement made in it.",
"every survey table, radius, random stream of rows and offsets, graph of parameters, model, number of objects (two or more, or any with radius zero), time window and list of surveys",
"A test samples a few objects from a small table and looks at a few positions; that no draw, pointing (also near the poles or across 0/360 degrees) or window loses the visit an object was sampled from needs the planar offset and the great-circle search compared for all of them.",
["src/lightcurvelynx/math_nodes/ra_dec_sampler.py: ObsTableRADECSampler.compute","src/lightcurvelynx/math_nodes/given_sampler.py: TableSampler.compute","src/lightcurvelynx/obstable/obs_table.py: range_search","src/lightcurvelynx/simulate.py: simulate_lightcurves"])
p("C150","A survey with a rectangular detector observes exactly what falls on the detector",
"When a survey's detector is a rectangle (DetectorFootprint.from_rect) and the search radius is at least half its diagonal, range_search returns exactly the visits within the time bounds on whose turned rectangle the point falls (in the tangent plane of the pointing): the radius never loses one. In a whole simulation of such surveys each object's light curve has exactly the measurements of the visits, within the time window, whose detector covers the object. Points near enough to the pointing are on the detector however it is turned; half a turn of the camera changes nothing and a quarter turn exchanges width and height.",
"every survey table, with or without rotation column, size of rectangle, pixel scale, radius up to 180 degrees, position, rotation, time bounds, graph of parameters, model, number of objects and list of surveys",
"A test looks up a few points around a few pointings; that the circle of the tree search holds the whole rectangle on the sphere, near the poles and across 0/360 degrees too, is a statement about all of them.",
["src/lightcurvelynx/obstable/obs_table.py: range_search","src/lightcurvelynx/astro_utils/detector_footprint.py: from_rect, contains","src/lightcurvelynx/simulate.py: simulate_lightcurves"])
with open('/verif/properties.jsonl','w') as f:
    for q in P: f.write(json.dumps(q)+"\n")
print(len(P))
