{
 "claims": [
  {
   "property": "C01",
   "status": "proved",
   "theorems": [
    "LCL.GraphProps.C01_set_step",
    "LCL.GraphProps.C01_set_history",
    "LCL.GraphProps.C01_spec_deterministic"
   ],
   "note": ""
  },
  {
   "property": "C02",
   "status": "proved",
   "theorems": [
    "LCL.GraphProps.C02_fixed_set",
    "LCL.GraphProps.C02_fixed_stays",
    "LCL.GraphProps.C02_fixed_update"
   ],
   "note": ""
  },
  {
   "property": "C03",
   "status": "partial",
   "theorems": [
    "LCL.GraphProps.C03_len_partial",
    "LCL.GraphProps.C03_len_counterexample"
   ],
   "note": "PROVED PART: C03, partial: for histories in which every call returns normally, `len` is the number of distinct stored parameters. Missing: histories with a raising `set`/`update` \u2014 false there, see `C03_len_counterexample`. THE CODE REFUTES THE REST: [C03_len_counterexample] C03 fails after a raising call: a length mismatch on a new parameter is counted although nothing is stored."
  },
  {
   "property": "C04",
   "status": "proved",
   "theorems": [
    "LCL.GraphProps.C04_rows"
   ],
   "note": ""
  },
  {
   "property": "C05",
   "status": "partial",
   "theorems": [
    "LCL.GraphProps.C05_concat_rows",
    "LCL.GraphProps.C05_concat_rejects",
    "LCL.GraphProps.C05_roundtrip_partial",
    "LCL.GraphProps.C05_roundtrip_counterexample"
   ],
   "note": "PROVED PART: C05 (round trip), partial: iterating over a reachable state with several samples whose cells are not themselves arrays, and concatenating the samples, gives the same samples and the same values. Missing: array-valued parameters, for which it is false (`C05_roundtrip_counterexample`). THE CODE REFUTES THE REST: [C05_roundtrip_counterexample] C05 fails for array-valued parameters: the samples of a two-sample state with a two-component parameter cannot be concatenated again."
  },
  {
   "property": "C06",
   "status": "proved",
   "theorems": [
    "LCL.GraphEqProps.C06_nested_dict",
    "LCL.GraphProps.C06_dict_roundtrip",
    "LCL.GraphProps.C06_table_roundtrip"
   ],
   "note": ""
  },
  {
   "property": "C07",
   "status": "proved",
   "theorems": [
    "LCL.GraphProps.C07_extract"
   ],
   "note": ""
  },
  {
   "property": "C08",
   "status": "partial",
   "theorems": [
    "LCL.GraphProps.C08_contains_iff_lookup",
    "LCL.GraphProps.C08_lookup_raises_partial",
    "LCL.GraphProps.C08_lookup_counterexample",
    "LCL.GraphProps.C08_names_unambiguous"
   ],
   "note": "PROVED PART: C08 (lookup side), partial: when the state does not hold exactly one node, or the key has a dot, a key that is not present raises `KeyError`. Missing: with exactly one node stored, an absent short key returns `None` instead (`C08_lookup_counterexample`). THE CODE REFUTES THE REST: [C08_lookup_counterexample] C08 fails for a short key missing from the only stored node: no `KeyError`, `None` is returned; and `in` raises `KeyError` (instead of being `False`) for a key with two dots."
  },
  {
   "property": "C09",
   "status": "proved",
   "theorems": [
    "LCL.GraphProps.C09_update_merges",
    "LCL.GraphProps.C09_update_graph",
    "LCL.GraphProps.C09_update_same_size_succeeds"
   ],
   "note": ""
  },
  {
   "property": "C10",
   "status": "proved",
   "theorems": [
    "LCL.GraphProps.C10_transpose"
   ],
   "note": ""
  },
  {
   "property": "C11",
   "status": "proved",
   "theorems": [
    "LCL.NodeProps.C11_positions",
    "LCL.NodeProps.C11_history_independent"
   ],
   "note": ""
  },
  {
   "property": "C12",
   "status": "proved",
   "theorems": [
    "LCL.ApiProps.C12_api_equations",
    "LCL.NodeProps.C12_equations",
    "LCL.NodeProps.C12_each_once",
    "LCL.NodeProps.C12_depth_bound_immaterial"
   ],
   "note": ""
  },
  {
   "property": "C13",
   "status": "proved",
   "theorems": [
    "LCL.NodeProps.C13_given_wins"
   ],
   "note": ""
  },
  {
   "property": "C14",
   "status": "proved",
   "theorems": [
    "LCL.NodeProps.C14_complete",
    "LCL.NodeProps.C14_succeeds"
   ],
   "note": ""
  },
  {
   "property": "C15",
   "status": "proved",
   "theorems": [
    "LCL.NodeProps.C15_duplicate_names_raise",
    "LCL.NodeProps.C15_unlabelled_names_distinct"
   ],
   "note": ""
  },
  {
   "property": "C16",
   "status": "proved",
   "theorems": [
    "LCL.DepApiProps.C16_calls",
    "LCL.DepProps.C16_dependency_graph",
    "LCL.DepProps.C16_constants_separate"
   ],
   "note": ""
  },
  {
   "property": "C17",
   "status": "proved",
   "theorems": [
    "LCL.PytreeProps.C17_pytree",
    "LCL.PytreeProps.C17_unnumbered_raises",
    "LCL.PytreeProps.C17_succeeds"
   ],
   "note": ""
  },
  {
   "property": "C18",
   "status": "proved",
   "theorems": [
    "LCL.ComputeProps.C18_compute",
    "LCL.ComputeProps.C18_wrong_count"
   ],
   "note": ""
  },
  {
   "property": "C19",
   "status": "proved",
   "theorems": [
    "LCL.SamplerProps.C19_list_in_order",
    "LCL.SamplerProps.C19_empty_rejected"
   ],
   "note": ""
  },
  {
   "property": "C20",
   "status": "partial",
   "theorems": [
    "LCL.SamplerProps.C20_rows_together_partial",
    "LCL.SamplerProps.C20_single_column_counterexample"
   ],
   "note": "PROVED PART: C20, for tables with at least two columns (see `C20_single_column_counterexample` for one). After any history of `compute` and `reset` calls, the next `compute` stores whole rows: there are row indices, one per sample and all of existing rows, such that every (not fixed) column parameter holds, for sample `k`, that column's entry of row `inds[k]`; nothing else in the state changes. In order, these are the next rows after those handed out since the last reset; when they run out the call raises `IndexError` and changes neither sampler, generator nor state. At random it never raises. THE CODE REFUTES THE REST: [C20_single_column_counterexample] C20 is false of one-column tables: the list of columns is taken for the value. With one sample a length-one list is stored instead of the entry; with two or more samples the call raises."
  },
  {
   "property": "C21",
   "status": "partial",
   "theorems": [
    "LCL.MathProps.C21_accepted_iff",
    "LCL.MathProps.C21_rejected",
    "LCL.MathProps.C21_same_function_partial",
    "LCL.MathProps.C21_formula_partial",
    "LCL.MathProps.C21_confined_partial",
    "LCL.MathProps.C21_numpy_max_counterexample",
    "LCL.MathProps.C21_shadowed_module_counterexample",
    "LCL.MathProps.C21_called_input_counterexample"
   ],
   "note": "PROVED PART: **C21** (part): the node evaluates to what the given expression means: the given tree evaluated with the inputs as local names and each listed name standing for the function `std` of that name. Required of the library: it offers, under its own name, the object `std f` for each listed function used that is not itself an input. This is where the property fails for `max` and `min` with numpy and jax, see `C21_numpy_max_counterexample`. Missing as well: no input may have the name of the module of the backend, see `C21_shadowed_module_counterexample`. | **C21** (part): a math node made from the text of a formula computes the value of the formula: operands in the order written, inputs by their names, functions applied to their arguments in order. Required of the library, and missing, as in `C21_same_function_partial`. | **C21** (part): the value of an accepted expression depends on nothing but literals, the arithmetic operators, the inputs and calls of the listed functions. In two worlds that agree on these the values are the same, however much the worlds differ in attributes, in all other objects that can be called, in other global names and builtins (`__import__`, `open`, ...) and in the meaning of any other syntax. Required: no input has the name of a listed function or of the module; see `C21_called_input_counterexample`. THE CODE REFUTES THE REST: [C21_numpy_max_counterexample] **C21**: with numpy, `max(x, 0)` is not the larger of `x` and 0: at -1 it is -1, because the second argument of `np.max` is an axis. | [C21_shadowed_module_counterexample] **C21**: an input named `np` hides the module: the accepted `fabs(np)` is an attribute access to the value of the input and fails, though its meaning is the absolute value. | [C21_called_input_counterexample] **C21**: an input named like a function is called: with the inputs `sin` and `x`, the accepted `sin(x)` calls whatever object the input holds."
  },
  {
   "property": "C22",
   "status": "partial",
   "theorems": [
    "LCL.SamplerProps.C22_binary",
    "LCL.SamplerProps.C22_binary_extremes",
    "LCL.SamplerProps.C22_weights_normalised",
    "LCL.SamplerProps.C22_weighted_choice",
    "LCL.SamplerProps.C22_invalid_weights_raise",
    "LCL.SamplerProps.C22_unweighted_choice",
    "LCL.SamplerProps.C22_integer_weights_counterexample",
    "LCL.SamplerProps.C22_selector"
   ],
   "note": "THE CODE REFUTES THE REST: [C22_integer_weights_counterexample] C22 is false of integer weights: a valid list of integer weights is rejected when the sampler is built (the in-place division of an integer array raises), whatever the options."
  },
  {
   "property": "C23",
   "status": "proved",
   "theorems": [
    "LCL.SkyProps.C23_inside",
    "LCL.SkyProps.C23_onto",
    "LCL.SkyProps.C23_rejects"
   ],
   "note": ""
  },
  {
   "property": "C24",
   "status": "proved",
   "theorems": [
    "LCL.SkyProps.C24_range_and_law",
    "LCL.SkyProps.C24_monotone_onto",
    "LCL.SkyProps.C24_compute"
   ],
   "note": ""
  },
  {
   "property": "C25",
   "status": "partial",
   "theorems": [
    "LCL.SkyProps.C25_covered_partial",
    "LCL.SkyProps.C25_uncovered_counterexample"
   ],
   "note": "PROVED PART: C25, when the iterations suffice. `compute` always returns and stores (unless fixed) `num_samples` points, and all of them are covered, unless `max_iterations` refills left some sample uncovered \u2014 the case the full property does not allow (see `C25_uncovered_counterexample`). THE CODE REFUTES THE REST: [C25_uncovered_counterexample] C25 is false when the iterations run out: with a footprint the draws never hit, every `max_iterations` returns normally with an uncovered point."
  },
  {
   "property": "C26",
   "status": "partial",
   "theorems": [
    "LCL.PassbandProps.C26_flat_partial",
    "LCL.PassbandProps.C26_flat_ratio",
    "LCL.PassbandProps.C26_linear",
    "LCL.PassbandProps.C26_nonneg",
    "LCL.PassbandProps.C26_bounded",
    "LCL.PassbandProps.C26_flat_counterexample"
   ],
   "note": "PROVED PART: C26 (flat spectra), where the property holds. For every constructed passband: a flat spectrum of value `c` has bandflux exactly `c` when the passband is built without a grid step (`delta_wave=None`), and when its grid steps are exactly `delta_wave`. Missing: other steps, see `C26_flat_ratio` and `C26_flat_counterexample`. THE CODE REFUTES THE REST: [C26_flat_counterexample] C26 is false when `delta_wave` does not divide the table's range: the table of transmission 1 at wavelengths 1 and 4 with `delta_wave = 2` is put on one step of 3, and the flat spectrum of value 1 has bandflux 2/3."
  },
  {
   "property": "C27",
   "status": "proved",
   "theorems": [
    "LCL.PassbandProps.C27_interpolated"
   ],
   "note": ""
  },
  {
   "property": "C28",
   "status": "partial",
   "theorems": [
    "LCL.PassbandProps.C28_trim_partial",
    "LCL.PassbandProps.C28_upper_tail_counterexample"
   ],
   "note": "PROVED PART: C28, except for the upper tail. For every physical, strictly increasing table of positive area and every quantile `0 < q < 1/2`, trimming keeps a contiguous run of unchanged rows; the area dropped below it is at most the fraction `q`, and the area dropped above it is at most `q` plus the one trapezoid above the last kept row (adding back the row `upper + 1` makes the tail at most `q`). Quantiles 0 and None keep the table. Missing: the area dropped above is *not* at most `q` (`C28_upper_tail_counterexample`). THE CODE REFUTES THE REST: [C28_upper_tail_counterexample] C28 is false for the upper tail of *every* physical table: whatever the table and quantile, the kept rows end strictly before the last row and the area dropped above them is strictly more than the requested fraction `q`."
  },
  {
   "property": "C29",
   "status": "partial",
   "theorems": [
    "LCL.PassbandGroupProps.C29_shared_grid_partial",
    "LCL.PassbandGroupProps.C29_grid_mismatch",
    "LCL.PassbandGroupProps.C29_close_waves_counterexample",
    "LCL.PassbandGroupProps.C29_index_error_counterexample"
   ],
   "note": "PROVED PART: C29, when the bands' wavelengths are separated. For every reachable group no two distinct wavelengths of which are closer than `1e-5`: the shared grid is strictly increasing and holds exactly the wavelengths of the member bands, and the bandfluxes of any spectra sampled on the shared grid, for one band or for all, are those the member bands themselves give for the same spectra sampled on their own grids. (Every array of fluxes on the grid is such a sample, as the grid has no repetition.) Missing: groups with distinct but closer wavelengths, see `C29_close_waves_counterexample`. THE CODE REFUTES THE REST: [C29_close_waves_counterexample] C29 is false for distinct wavelengths closer than the threshold: in the group of a band on `{1, 2}` and a band on `{2.000001, 3}` the second band is given the flux at 3 twice. | [C29_index_error_counterexample] C29, worse: when a band's last wavelengths are merged away, its bandflux raises IndexError."
  },
  {
   "property": "C30",
   "status": "partial",
   "theorems": [
    "LCL.PassbandGroupProps.C30_lookup",
    "LCL.PassbandGroupProps.C30_bandflux_partial",
    "LCL.PassbandGroupProps.C30_ambiguous_counterexample"
   ],
   "note": "PROVED PART: C30 (bandflux by name), for unambiguous names. For every reachable group: when lookup returns a band, the bandflux under that key is the one under the band's full name; when the key is neither a full name nor a filter name, ValueError is raised. Missing: ambiguous filter names, see `C30_ambiguous_counterexample`. THE CODE REFUTES THE REST: [C30_ambiguous_counterexample] C30 is false for ambiguous filter names: in a group of two surveys' bands of one filter, looking the filter up raises KeyError while the bandflux under that filter name is silently that of the first survey's band. Here with full agreement of the hypotheses of `C29_shared_grid_partial`."
  },
  {
   "property": "C31",
   "status": "proved",
   "theorems": [
    "LCL.BandfluxProps.C31_independent",
    "LCL.BandfluxProps.C31_value",
    "LCL.BandfluxProps.C31_sed_model",
    "LCL.BandfluxProps.C31_arguments"
   ],
   "note": ""
  },
  {
   "property": "C32",
   "status": "proved",
   "theorems": [
    "LCL.PhysicalProps.C32_evaluate",
    "LCL.PhysicalProps.C32_transform",
    "LCL.PhysicalProps.C32_missing_raises"
   ],
   "note": ""
  },
  {
   "property": "C33",
   "status": "proved",
   "theorems": [
    "LCL.PhysicalProps.C33_order",
    "LCL.PhysicalProps.C33_listed"
   ],
   "note": ""
  },
  {
   "property": "C34",
   "status": "proved",
   "theorems": [
    "LCL.ExtrapolationProps.C34_columns",
    "LCL.ExtrapolationProps.C34_pointwise",
    "LCL.ExtrapolationProps.C34_empty_raises",
    "LCL.ExtrapolationProps.C34_builtin",
    "LCL.ExtrapolationProps.C34_exponential"
   ],
   "note": ""
  },
  {
   "property": "C35",
   "status": "proved",
   "theorems": [
    "LCL.MultiProps.C35_sum",
    "LCL.MultiProps.C35_bandflux_object_raises",
    "LCL.MultiProps.C35_sum_bandflux",
    "LCL.MultiProps.C35_order_irrelevant",
    "LCL.MultiProps.C35_effects",
    "LCL.MultiProps.C35_weights"
   ],
   "note": ""
  },
  {
   "property": "C36",
   "status": "partial",
   "theorems": [
    "LCL.MultiProps.C36_selected_partial",
    "LCL.MultiProps.C36_constructed_partial",
    "LCL.MultiProps.C36_same_name_counterexample",
    "LCL.MultiProps.C36_minwave_counterexample"
   ],
   "note": "PROVED PART: C36, where it holds: with pairwise distinct names, a random model in a state whose `selected_object` is the name of object k evaluates (SED and bandfluxes) to the evaluation of object k in that same state, hence under object k's own parameters, followed by the composite's own effects; an unknown or missing selection raises KeyError. Missing: repeated names and minwave/maxwave, see the counterexamples. | C36, from the constructor: the names that select the objects are the given ones, in order, and the objects' own node strings when no names (or an empty list) are given. With pairwise distinct names, a state selecting the k-th of them evaluates the k-th object. Missing: as in `C36_selected_partial`. THE CODE REFUTES THE REST: [C36_same_name_counterexample] C36 is false for objects of one class without labels: their names are equal when the composite is built, so the first of two such objects is never evaluated, in any state: replacing it by any other SED object of that name changes nothing. | [C36_minwave_counterexample] C36 is false for minwave and maxwave: they raise TypeError in every state."
  },
  {
   "property": "C37",
   "status": "partial",
   "theorems": [
    "LCL.RangeSearchProps.C37_exact",
    "LCL.RangeSearchProps.C37_set_radius",
    "LCL.RangeSearchProps.C37_bad_query_raises",
    "LCL.RangeSearchProps.C37_bad_bounds_raise",
    "LCL.RangeSearchProps.C37_scalar_bounds_counterexample",
    "LCL.RangeSearchProps.C37_succeeds",
    "LCL.RangeSearchProps.C37_is_observed",
    "LCL.RangeSearchProps.C37_overwrite_counterexample",
    "LCL.RangeSearchProps.C37_large_radius_counterexample",
    "LCL.RangeSearchProps.C37_is_observed_counterexample"
   ],
   "note": "THE CODE REFUTES THE REST: [C37_scalar_bounds_counterexample] C37 fails for scalar time bounds (which the documentation of the error message allows) as soon as there is more than one query point: they raise ValueError. | [C37_overwrite_counterexample] C37 fails when a pointing column is overwritten: the search still uses the old pointings. The pointing is moved from (0, 0) to (180, 0); the search at (0, 0) still finds it. | [C37_large_radius_counterexample] C37 fails for a radius above 180 degrees: the search radius shrinks again. Every point is within 360 degrees of every pointing, but the search at (90, 0) with radius 360 does not find the pointing (0, 0). | [C37_is_observed_counterexample] C37, is_observed, fails for a scalar right ascension with a declination array of one element: the answer is always True, here for a point on the other side of the sky."
  },
  {
   "property": "C38",
   "status": "partial",
   "theorems": [
    "LCL.ObsTableProps.C38_rows",
    "LCL.ObsTableProps.C38_bad_rows_raise",
    "LCL.ObsTableProps.C38_queries",
    "LCL.ObsTableProps.C38_sequence",
    "LCL.ObsTableProps.C38_time_bounds",
    "LCL.ObsTableProps.C38_get_observations_partial",
    "LCL.ObsTableProps.C38_get_observations_counterexample",
    "LCL.ObsTableProps.C38_filters_counterexample",
    "LCL.ObsTableProps.C38_empty_list_counterexample"
   ],
   "note": "PROVED PART: C38, get_observations, the part that holds: on a table whose rows are labelled 0, 1, 2, ... (a table that was never filtered), get_observations returns for every requested column the entries of exactly the rows that range_search finds. Missing: tables whose labels are not their positions, which is what filter_rows leaves (see `C38_get_observations_counterexample`). THE CODE REFUTES THE REST: [C38_get_observations_counterexample] C38 fails for get_observations: after keeping only the second row, range_search finds that row (number 0), but get_observations looks for the label 0, which is gone, and raises KeyError. | [C38_filters_counterexample] C38 fails for the attribute `filters`: it still lists the filters of the removed rows, while a table built from the remaining row lists only r. | [C38_empty_list_counterexample] C38 fails for an empty list of rows: instead of an empty table it raises IndexError."
  },
  {
   "property": "C39",
   "status": "partial",
   "theorems": [
    "LCL.ObsTableProps.C39_names",
    "LCL.ObsTableProps.C39_rejects",
    "LCL.ObsTableProps.C39_add",
    "LCL.ObsTableProps.C39_add_counterexample",
    "LCL.ObsTableProps.C39_two_names_counterexample"
   ],
   "note": "THE CODE REFUTES THE REST: [C39_add_counterexample] C39 fails for add_column under the original name of a mapped column: `mjd` is in the table, yet adding a column `mjd` raises nothing and replaces the data found under that name. | [C39_two_names_counterexample] C39 fails when one column is given two standard names: only the last one is used, so here the required name `time` is missing and the constructor raises KeyError."
  },
  {
   "property": "C40",
   "status": "partial",
   "theorems": [
    "LCL.SimulateProps.C40_lightcurves_partial",
    "LCL.SimulateProps.C40_unobserved_saved_column_counterexample",
    "LCL.SimulateProps.C40_standard_column_counterexample",
    "LCL.SimulateProps.C40_succeeds"
   ],
   "note": "PROVED PART: C40. If a simulation succeeds (saved columns being distinct and none of the standard ones), then there is one result row per sampled object, in order, with that object's position, and there are blocks of observations, one per object and survey, such that: every block's times, filters, noise-free fluxes, errors and noisy fluxes belong to its own rows of its own survey; object `k`'s lightcurve consists, in every column (standard or saved), of the blocks of object `k` in survey order, and its nobs is the total number of rows; and the rows of a block are those matching the object's position within its time window, in table order, after the optional mask. THE CODE REFUTES THE REST: [C40_unobserved_saved_column_counterexample] C40 fails for an object outside every pointing when a table column is to be saved: the simulation raises IndexError instead of giving the object an empty lightcurve. The same request without saved columns gives an empty lightcurve. | [C40_standard_column_counterexample] C40 fails when a standard column is also listed among the columns to save: its entries are recorded twice and the simulation raises ValueError."
  },
  {
   "property": "C41",
   "status": "partial",
   "theorems": [
    "LCL.SimulateProps.C41_windows",
    "LCL.SimulateProps.C41_succeeds",
    "LCL.SimulateProps.C41_missing_t0_counterexample"
   ],
   "note": "THE CODE REFUTES THE REST: [C41_missing_t0_counterexample] C41 fails for a model without t0 when several objects are sampled: for one object a missing t0 means no window, but for two or more the same request raises TypeError."
  },
  {
   "property": "C42",
   "status": "partial",
   "theorems": [
    "LCL.PhotometryProps.C42_formula",
    "LCL.PhotometryProps.C42_monotone",
    "LCL.PhotometryProps.C42_scaling",
    "LCL.PhotometryProps.C42_noise",
    "LCL.PhotometryProps.C42_callable_readout_counterexample",
    "LCL.PhotometryProps.C42_negative_flux_counterexample"
   ],
   "note": "THE CODE REFUTES THE REST: [C42_callable_readout_counterexample] C42 fails for a readout noise given as a function: the documented noise per pixel and exposure is not multiplied by the number of pixels and of exposures, so the error does not grow with them. | [C42_negative_flux_counterexample] C42 fails for negative fluxes: in every observation there are fluxes, all negative, for which the error is not a number."
  },
  {
   "property": "C43",
   "status": "proved",
   "theorems": [
    "LCL.PhotometryProps.C43_inverse",
    "LCL.PhotometryProps.C43_decreasing",
    "LCL.PhotometryProps.C43_scale"
   ],
   "note": ""
  },
  {
   "property": "C44",
   "status": "partial",
   "theorems": [
    "LCL.PostProps.C44_single_ok",
    "LCL.PostProps.C44_single",
    "LCL.PostProps.C44_entries_partial",
    "LCL.PostProps.C44_time_rel_partial",
    "LCL.PostProps.C44_filtered_counterexample",
    "LCL.PostProps.C44_reordered_counterexample",
    "LCL.PostProps.C44_zero_t0_counterexample",
    "LCL.PostProps.C44_detection_counterexample",
    "LCL.PostProps.C44_rejects"
   ],
   "note": "PROVED PART: C44, nested tables: every entry with a positive flux and error gets its signal to noise, its detection flag (true exactly from the threshold on), its magnitude and the error of that; signal to noise and magnitudes of the other entries are missing. Rows, entries per row and all other columns are unchanged. What the full property asks beyond this is that the detection flag of the other entries is false (`C44_detection_counterexample`), and relative times (`C44_time_rel_partial`). | C44, relative times, for a table whose rows are labelled 0, 1, 2, ... (as every simulation returns it) and whose t0 are all non-zero: augmenting succeeds and every entry's relative time is its time minus the t0 of the row the entry belongs to. The full property has no such restriction on labels and t0 (`C44_filtered_counterexample`, `C44_reordered_counterexample`, `C44_zero_t0_counterexample`). THE CODE REFUTES THE REST: [C44_filtered_counterexample] C44 fails after selecting rows: with the second row of a two-row result (label 1), augmenting raises IndexError, because the label is used as a position. | [C44_reordered_counterexample] C44 fails after sorting rows: the rows labelled 1 and 0 get each other's t0. | [C44_zero_t0_counterexample] C44 fails for a t0 of zero: no entry of any row gets a relative time. | [C44_detection_counterexample] C44 fails for the detection flag of an entry without a positive flux: it is missing, not false (while `augment_single_lightcurve` gives false, `C44_single`)."
  },
  {
   "property": "C45",
   "status": "partial",
   "theorems": [
    "LCL.LclibProps.C45_reads_partial",
    "LCL.LclibProps.C45_malformed",
    "LCL.LclibProps.C45_file",
    "LCL.LclibProps.C45_carry_over_counterexample",
    "LCL.LclibProps.C45_malformed_counterexample",
    "LCL.LclibProps.C45_space"
   ],
   "note": "PROVED PART: C45. Reading a file that says what an LCLIB file can say gives one table per event, in order. Each holds exactly the rows of its event, and each entry of its metadata is the value given last before the end of the event; so every entry given for the event itself has the value given there. What is missing from the full property: an entry not given for an event but for an earlier one is in its metadata, too (`C45_carry_over_counterexample`). THE CODE REFUTES THE REST: [C45_carry_over_counterexample] C45 fails for the metadata: the second table has an entry that was given for the first event only. | [C45_malformed_counterexample] C45 fails for malformed files: an event that does not end is dropped without an error, one that ends twice is returned twice, and rows between events are dropped."
  },
  {
   "property": "C46",
   "status": "partial",
   "theorems": [
    "LCL.GridIOProps.C46_inverts",
    "LCL.GridIOProps.C46_validated",
    "LCL.GridIOProps.C46_rejects",
    "LCL.GridIOProps.C46_unvalidated_counterexample",
    "LCL.GridIOProps.C46_suffix"
   ],
   "note": "THE CODE REFUTES THE REST: [C46_unvalidated_counterexample] C46 fails without validation (the default): the rows of a full grid in another order are accepted, and the values end up at the wrong grid points."
  },
  {
   "property": "C47",
   "status": "partial",
   "theorems": [
    "LCL.GridIOProps.C47_round_trip_partial",
    "LCL.GridIOProps.C47_unsupported",
    "LCL.GridIOProps.C47_dat_counterexample",
    "LCL.GridIOProps.C47_shape_counterexample"
   ],
   "note": "PROVED PART: C47. Reading back a file just written gives the same array: for `.npy` and `.npz` files for every array, for `.csv`, `.ecsv` and `.txt` files for the arrays text can represent. The full property also has `.dat` files, which cannot be read (`C47_dat_counterexample`), and all arrays (`C47_shape_counterexample`). THE CODE REFUTES THE REST: [C47_dat_counterexample] C47 fails for `.dat` files: they are written but cannot be read. | [C47_shape_counterexample] C47 fails for text files with a single row, column or entry: the array read has another shape."
  },
  {
   "property": "C48",
   "status": "partial",
   "theorems": [
    "LCL.BicubicProps.C48_weights_sum",
    "LCL.BicubicProps.C48_in_range",
    "LCL.BicubicProps.C48_grid_point_partial",
    "LCL.BicubicProps.C48_constant_partial",
    "LCL.BicubicProps.C48_call_shape",
    "LCL.BicubicProps.C48_spacing_counterexample",
    "LCL.BicubicProps.C48_weights_moment",
    "LCL.BicubicProps.C48_bilinear",
    "LCL.BicubicGridProps.C48_cross_products",
    "LCL.BicubicGridProps.C48_call_arrays"
   ],
   "note": "PROVED PART: C48. At a grid point the interpolator returns the stored value, on axes whose spacing is judged rightly. The full property has no such condition (`C48_spacing_counterexample`). | C48. Outside of the bounds of an axis the result is zero; on a constant grid it is the constant everywhere inside, on axes whose spacing is judged rightly. THE CODE REFUTES THE REST: [C48_spacing_counterexample] C48 fails on axes with small irregular steps, which are taken for regular: the value returned at a grid point is not the stored one, and a constant grid gives another value."
  },
  {
   "property": "C49",
   "status": "partial",
   "theorems": [
    "LCL.TemplateProps.C49_periodic_repeats",
    "LCL.TemplateProps.C49_nonperiodic_partial",
    "LCL.TemplateProps.C49_unknown_filter",
    "LCL.TemplateProps.C49_periodic_values_partial",
    "LCL.TemplateProps.C49_accepted",
    "LCL.TemplateProps.C49_magnitude_baseline_counterexample",
    "LCL.TemplateProps.C49_times_counterexample",
    "LCL.TemplateProps.C49_baseline_reuse_counterexample"
   ],
   "note": "PROVED PART: **C49** (part): a template that is not periodic gives, at every time after the reference epoch `t0`, the baseline outside of the rows of the filter and the straight lines between the rows inside, with magnitudes converted to fluxes. Missing: magnitudes without a baseline, see `C49_magnitude_baseline_counterexample`. | **C49** (part): a periodic template whose filters all have the same times, and whose reference epoch is its first time (or is given as 0 and found from the data), gives at every time the value of the straight lines through the rows at the same phase: `P` is the time between the first and the last row. Missing: data whose times are only nearly equal, see `C49_times_counterexample`. THE CODE REFUTES THE REST: [C49_magnitude_baseline_counterexample] **C49**: magnitudes without a baseline: outside of the rows the flux is the flux of magnitude 0, not 0. | [C49_times_counterexample] **C49**: periodic curves that are not sampled at the same times are accepted, because the comparison of times is relative to their size: at a date of 60000 days half a day is within the tolerance. Both curves have the constant flux 5, but during the first half of the period the flux in `r` is 0. | [C49_baseline_reuse_counterexample] **C49**: with magnitudes the caller's dictionary is converted in place, so that the next template made with it has another baseline: two equal constructions in a row give different templates."
  },
  {
   "property": "C50",
   "status": "partial",
   "theorems": [
    "LCL.TemplateSedProps.C50_sed_partial",
    "LCL.TemplateSedProps.C50_mixture",
    "LCL.TemplateSedProps.C50_bandflux",
    "LCL.TemplateSedProps.C50_rejected",
    "LCL.TemplateSedProps.C50_constructed",
    "LCL.TemplateSedProps.C50_leak_counterexample"
   ],
   "note": "PROVED PART: C50 (through the spectrum), when no filter faintly lets through a wavelength significant in another. For every template set, every reachable passband group with separated wavelengths and every list of times: if the model can be constructed, then for each of its filters the model's spectrum, sampled on that filter's wavelengths and integrated through its passband, or sampled on the group's grid and integrated by the group, is the template's value in that filter at every time (shifted by `t0`). Missing: groups that are not separated (C29), and filters leaking into each other below the significance threshold (`C50_leak_counterexample`). THE CODE REFUTES THE REST: [C50_leak_counterexample] C50 is false through the spectrum when a filter lets through, below the significance threshold, a wavelength of another: the template's value in `b` is 0 and the bandflux of the model's spectrum in `b` is positive."
  },
  {
   "property": "C51",
   "status": "partial",
   "theorems": [
    "LCL.SurveyZpProps.C51_opsim_rows_partial",
    "LCL.SurveyZpProps.C51_ztf_rows",
    "LCL.SurveyZpProps.C51_missing_column",
    "LCL.ZeropointProps.C51_zero_points_partial",
    "LCL.ZeropointProps.C51_zero_points_succeed",
    "LCL.ZeropointProps.C51_electrons",
    "LCL.ZeropointProps.C51_exposure",
    "LCL.ZeropointProps.C51_five_sigma",
    "LCL.ZeropointProps.C51_ztf_constants_counterexample",
    "LCL.ZeropointProps.C51_integer_entry_counterexample",
    "LCL.ZeropointProps.C51_empty_counterexample"
   ],
   "note": "PROVED PART: C51: the zero point column an LSST table derives holds for every row the zero point of the filter, airmass and exposure time of that row; no other column changes. | C51. If the flux zero points can be computed (the entries of the first observation's band being floats), then every observation's zero point is the flux of the magnitude `instr[band] + ext[band] * (airmass - 1) + 2.5 log10 exptime` of that observation. THE CODE REFUTES THE REST: [C51_ztf_constants_counterexample] C51 fails for a ZTF table with its own camera values: the zero point is computed from fixed constants (gain 6.2, readout noise 8), so that with other values of the survey the limiting magnitude is no longer a five sigma detection. Here for a table declared free of readout noise and of sky counts. | [C51_integer_entry_counterexample] C51 fails when the first entry used is a Python int: all other zero points are then truncated to integers. | [C51_empty_counterexample] C51 fails for a table without rows: computing its zero points raises ValueError."
  },
  {
   "property": "C52",
   "status": "proved",
   "theorems": [
    "LCL.UnitProps.C52_physical",
    "LCL.UnitProps.C52_inverse",
    "LCL.UnitProps.C52_linear",
    "LCL.UnitProps.C52_rejects"
   ],
   "note": ""
  },
  {
   "property": "C53",
   "status": "proved",
   "theorems": [
    "LCL.FootprintProps.C53_shapes",
    "LCL.FootprintProps.C53_frame",
    "LCL.FootprintProps.C53_membership",
    "LCL.FootprintProps.C53_rigid",
    "LCL.FootprintProps.C53_shift",
    "LCL.FootprintProps.C53_rotation",
    "LCL.FootprintProps.C53_distance",
    "LCL.FootprintProps.C53_rectangle",
    "LCL.FootprintProps.C53_rectangle_centre",
    "LCL.FootprintProps.C53_half_pixel"
   ],
   "note": ""
  },
  {
   "property": "C54",
   "status": "partial",
   "theorems": [
    "LCL.NoiseFreeProps.C54_lightcurves_partial",
    "LCL.NoiseFreeProps.C54_succeeds",
    "LCL.NoiseFreeProps.C54_integer_phases_counterexample",
    "LCL.NoiseFreeProps.C54_times_filter_counterexample"
   ],
   "note": "PROVED PART: C54. If compute_noise_free_lightcurves succeeds (no passband being called \"times\" or \"rest_phase\"), there is one row per sample with its position, and the lightcurve of every sample is evaluated on the grid of its own phases, at the observer-frame times: every filter's column is exactly the model evaluated for that sample in that filter at these times. THE CODE REFUTES THE REST: [C54_integer_phases_counterexample] C54 fails for integer phases (such as -50, 50, 2): with a float t0 and no positive redshift the call raises TypeError, though the same phases given as floats work. | [C54_times_filter_counterexample] C54 fails for a passband called \"times\": the column of times then holds fluxes."
  },
  {
   "property": "C55",
   "status": "partial",
   "theorems": [
    "LCL.DrwProps.C55_steps_partial",
    "LCL.DrwProps.C55_increasing_counterexample",
    "LCL.DrwProps.C55_elapsed_counterexample"
   ],
   "note": "PROVED PART: C55, what holds of the code. The first sample decays from the start over the time elapsed since it; every later sample decays from the sample before it, but over the time elapsed since the start; later times not after the start are rejected, and so are arrays of different lengths. What is missing: the elapsed time should be that since the previous sample (`C55_elapsed_counterexample`), and later times that are not increasing should be rejected (`C55_increasing_counterexample`). THE CODE REFUTES THE REST: [C55_increasing_counterexample] C55 fails: times that decrease are accepted as long as they come after the start. | [C55_elapsed_counterexample] C55 fails: the second sample is not the decay of the first over the time between them."
  },
  {
   "property": "C56",
   "status": "partial",
   "theorems": [
    "LCL.OversampleProps.C56_table_partial",
    "LCL.OversampleProps.C56_accepted",
    "LCL.OversampleProps.C56_divisibility_counterexample"
   ],
   "note": "PROVED PART: **C56** (part): for every list of observations, every time range, every positive step, every list of observed bands and both strategies, when the number of grid times is a multiple of the number of bands, there is a table. It has one row for every time of the grid from the start (inclusive) to the end (exclusive), in order; the bands take turns; ids follow the largest id of the survey and so are all new and distinct; the position is the pointing; every other column comes from an observation of the pointing in that band, the darkest one for `darkest_sky`; and every requested band appears. Missing: the property asks for this whenever the range holds at least as many times as bands; see `C56_divisibility_counterexample`. THE CODE REFUTES THE REST: [C56_divisibility_counterexample] **C56**: the time range `[0, 3)` with step 1 holds three times, enough for the two bands, but there is no table: the bands are repeated a whole number of times, which leaves two rows of filters for three times."
  },
  {
   "property": "C57",
   "status": "partial",
   "theorems": [
    "LCL.DistProps.C57_distribution_partial",
    "LCL.DistProps.C57_invalid_raise",
    "LCL.DistProps.C57_first_share_counterexample",
    "LCL.DistProps.C57_compute_partial"
   ],
   "note": "PROVED PART: C57, for draws not below the first point's share. For every accepted table with increasing points, the sample of a draw `u` is within the support, is monotone in `u`, and its cumulative distribution is the tabulated one: the sample is at most `t` only if `u` is at most the distribution at `t`, and is at most `t` whenever `u` is below the distribution at `t` (so a uniform `u` conditioned to this range has exactly that law); at the `i`-th share it gives the `i`-th point or beyond (flat stretches are skipped). The distribution takes the tabulated share at each tabulated point. Missing: draws below the first share, see `C57_first_share_counterexample`; and the samplers built on scipy's `NumericalInversePolynomial`, which are not modelled. | C57 (the node). When every draw lies in the covered range, `compute` stores (unless fixed) one value per sample, the inverse transform of that sample's own draw. THE CODE REFUTES THE REST: [C57_first_share_counterexample] C57 is false for draws below the first point's share, which occur whenever the first tabulated density is not zero: for every accepted table with a positive first density there is a draw in `[0, 1)` for which sampling raises."
  },
  {
   "property": "C58",
   "status": "proved",
   "theorems": [
    "LCL.PeriodicProps.C58_phase",
    "LCL.PeriodicProps.C58_repeats",
    "LCL.PeriodicProps.C58_observer"
   ],
   "note": ""
  },
  {
   "property": "C59",
   "status": "proved",
   "theorems": [
    "LCL.ApiProps.C59_set_parameter",
    "LCL.ApiProps.C59_add_parameter",
    "LCL.ApiProps.C59_frame",
    "LCL.ApiProps.C59_last_set_wins",
    "LCL.ApiProps.C59_wellformed"
   ],
   "note": ""
  },
  {
   "property": "C60",
   "status": "partial",
   "theorems": [
    "LCL.GraphProps.C60_extracted_set_counterexample",
    "LCL.GraphProps.C60_copy_partial"
   ],
   "note": "PROVED PART: C60, partial: `copy` yields a state that behaves identically in every later history. THE CODE REFUTES THE REST: [C60_extracted_set_counterexample] C60 fails: after extracting a single sample, setting a parameter of an existing node raises `KeyError` (the extracted state has no `fixed_vars` entry for it), while the same call on the original state succeeds."
  },
  {
   "property": "C61",
   "status": "partial",
   "theorems": [
    "LCL.NodeExamples.C61_overridden_output_counterexample"
   ],
   "note": "THE CODE REFUTES THE REST: [C61_overridden_output_counterexample] C61 counterexample. `set_parameter` accepts a new constant for one output of a two-output function node and reports no error, but sampling returns what the function computed."
  },
  {
   "property": "C62",
   "status": "partial",
   "theorems": [
    "LCL.NodeExamples.C62_edited_root_is_renumbered_partial",
    "LCL.NodeExamples.C62_stale_numbering_counterexample"
   ],
   "note": "PROVED PART: C62, partial: when the edited node is itself the one that is sampled, sampling numbers the whole current graph first, so (by C11) every reachable node has a position, and unlabelled nodes have different names. Missing: edits of the *dependencies* of the sampled node, for which the property fails (`C62_stale_numbering_counterexample`). THE CODE REFUTES THE REST: [C62_stale_numbering_counterexample] C62 counterexample. A graph is numbered; then two unlabelled function nodes are attached to a dependency of the root. Every edit succeeds, sampling the root raises (the new nodes were never numbered and share a name), while numbering the graph again would give all nodes different names."
  },
  {
   "property": "C63",
   "status": "proved",
   "theorems": [
    "LCL.GenerateProps.C63_get_param",
    "LCL.GenerateProps.C63_get_param_default",
    "LCL.GenerateProps.C63_generate"
   ],
   "note": ""
  },
  {
   "property": "C64",
   "status": "partial",
   "theorems": [
    "LCL.PassbandGroupProps.C64_filters_partial",
    "LCL.PassbandGroupProps.C64_both_names_counterexample"
   ],
   "note": "PROVED PART: C64, where it holds. A group built with a list of filters holds, under each name, exactly the last given passband of that full name, and only if it was asked for by full name or by filter name; every filter asked for names a member; and a filter that names no given band makes the construction raise ValueError. Without a list, every given band is kept. Missing: the construction may also raise although every filter names a band, see `C64_both_names_counterexample`. THE CODE REFUTES THE REST: [C64_both_names_counterexample] C64 is false in one direction: asking for a band by its full name and by its filter name raises ValueError (\"not found\") although both name a given band."
  },
  {
   "property": "C65",
   "status": "partial",
   "theorems": [
    "LCL.EffectProps.C65_in_range_partial",
    "LCL.EffectProps.C65_dropped_counterexample"
   ],
   "note": "PROVED PART: C65, the part that holds: when every requested wavelength lies within the model's limits, compute_sed is called with the keyword arguments given to evaluate_sed. Missing: requests with a wavelength outside the limits (see `C65_dropped_counterexample`). THE CODE REFUTES THE REST: [C65_dropped_counterexample] C65 fails once one requested wavelength (in the frame of the source) is outside the model's limits: the whole result, also at the wavelengths inside, is then the same whatever keyword arguments are given."
  },
  {
   "property": "C66",
   "status": "partial",
   "theorems": [
    "LCL.EffectProps.C66_fresh_partial",
    "LCL.EffectProps.C66_ignored_counterexample"
   ],
   "note": "PROVED PART: C66, the part that holds: when the model has no parameter of the effect's names, adding the effect gives the model exactly the effect's parameters, with the effect's own values, and changes no other parameter. Missing: effects with a parameter name the model (or an earlier effect) already has (see `C66_ignored_counterexample`). THE CODE REFUTES THE REST: [C66_ignored_counterexample] C66 fails: adding a constant dimming by `f` and then one by `g` multiplies the flux by `f * f`, not by `f * g`, whatever `g` is."
  },
  {
   "property": "C67",
   "status": "partial",
   "theorems": [
    "LCL.MultiProps.C67_sed_partial",
    "LCL.MultiProps.C67_composite_counterexample"
   ],
   "note": "PROVED PART: C67, where it holds: on a plain SED model, set_apply_redshift sets the flag and changes nothing else. THE CODE REFUTES THE REST: [C67_composite_counterexample] C67 is false for composites: whenever set_apply_redshift on a composite returns, nothing has changed; and if some object is a bandflux model it raises instead."
  },
  {
   "property": "C68",
   "status": "partial",
   "theorems": [
    "LCL.ObsTableProps.C68_constant_partial",
    "LCL.ObsTableProps.C68_present_or_missing",
    "LCL.ObsTableProps.C68_bad_value_raises",
    "LCL.ObsTableProps.C68_no_filter_counterexample"
   ],
   "note": "PROVED PART: C68. When a survey constant is turned into a column (the table has a filter column, and its recorded filters cover it), every row gets the value the constant has for the filter of that row; the values are positive if that was asked for; no other column changes. THE CODE REFUTES THE REST: [C68_no_filter_counterexample] C68 fails for a table without a filter column: a constant that is a single positive number becomes a column of zeros."
  },
  {
   "property": "C69",
   "status": "proved",
   "theorems": [
    "LCL.SurveyErrorProps.C69_opsim",
    "LCL.SurveyErrorProps.C69_ztf",
    "LCL.SurveyErrorProps.C69_roman",
    "LCL.SurveyErrorProps.C69_fake",
    "LCL.SurveyErrorProps.C69_constant",
    "LCL.SurveyErrorProps.C69_opsim_succeeds",
    "LCL.SurveyErrorProps.C69_fake_succeeds",
    "LCL.SurveyErrorProps.C69_bad_row"
   ],
   "note": ""
  },
  {
   "property": "C70",
   "status": "proved",
   "theorems": [
    "LCL.FakeObsProps.C70_zero_points",
    "LCL.FakeObsProps.C70_rejects",
    "LCL.FakeObsProps.C70_complete",
    "LCL.FakeObsProps.C70_footprint",
    "LCL.FakeObsProps.C70_constant_error"
   ],
   "note": ""
  },
  {
   "property": "C71",
   "status": "proved",
   "theorems": [
    "LCL.UnitProps.C71_photometric",
    "LCL.UnitProps.C71_spectroscopic"
   ],
   "note": ""
  },
  {
   "property": "C72",
   "status": "proved",
   "theorems": [
    "LCL.PostProps.C72_drop_empty"
   ],
   "note": ""
  },
  {
   "property": "C73",
   "status": "proved",
   "theorems": [
    "LCL.BinaryProps.C73_area",
    "LCL.PeriodicProps.C73_overlap",
    "LCL.PeriodicProps.C73_brightness",
    "LCL.PeriodicProps.C73_total"
   ],
   "note": ""
  },
  {
   "property": "C74",
   "status": "proved",
   "theorems": [
    "LCL.C74_natural_spline",
    "LCL.C74_knots",
    "LCL.C74_lines",
    "LCL.C74_surface",
    "LCL.C74_rejects"
   ],
   "note": ""
  },
  {
   "property": "C75",
   "status": "partial",
   "theorems": [
    "LCL.C75_grid_partial",
    "LCL.C75_grid_counterexample",
    "LCL.C75_half_curvature_counterexample",
    "LCL.C75_axes_counterexample"
   ],
   "note": "PROVED PART: C75 (partial: cells of width one only): the template passes through its tabulated fluxes. THE CODE REFUTES THE REST: [C75_grid_counterexample] C75 fails in general: on a wavelength axis of step two, with a flux peak in the middle, the template does not return the tabulated flux at a grid point. | [C75_half_curvature_counterexample] C75: the numbers used as second derivatives are exactly half the second derivatives of the natural spline through the data, at every knot. | [C75_axes_counterexample] C75: the same on the grid of the template: the curvature used at a grid point along each axis is half that of the natural spline through the tabulated fluxes of its column, or of its row."
  },
  {
   "property": "C76",
   "status": "proved",
   "theorems": [
    "LCL.C76_law",
    "LCL.C76_anchors",
    "LCL.C76_apply",
    "LCL.C76_file"
   ],
   "note": ""
  },
  {
   "property": "C77",
   "status": "proved",
   "theorems": [
    "LCL.C77_spectrum",
    "LCL.C77_colour",
    "LCL.C77_tripp",
    "LCL.C77_rate"
   ],
   "note": ""
  },
  {
   "property": "C78",
   "status": "proved",
   "theorems": [
    "LCL.C78_mask",
    "LCL.C78_same_phase"
   ],
   "note": ""
  },
  {
   "property": "C79",
   "status": "partial",
   "theorems": [
    "LCL.AgnProps.C79_linear",
    "LCL.AgnProps.C79_magnitude",
    "LCL.AgnProps.C79_reference",
    "LCL.AgnProps.C79_monotone",
    "LCL.AgnProps.C79_wavelength_partial",
    "LCL.AgnProps.C79_reference_wavelength_counterexample",
    "LCL.AgnProps.C79_hottest_ring",
    "LCL.AgnProps.C79_magnitude_zero"
   ],
   "note": "PROVED PART: C79, what holds of the values at other wavelengths: they are proportional to the wavelength, with the factors `10 ^ -0.479` and `10 ^ 0.17` at 4000 angstroms. What is missing: at 4000 angstroms they should be the 4000 angstrom parameters (`C79_reference_wavelength_counterexample`), and the exponents should be powers of the ratio of the wavelengths. THE CODE REFUTES THE REST: [C79_reference_wavelength_counterexample] C79 fails: at 4000 angstroms neither the structure function nor the time scale is the 4000 angstrom parameter, whatever its value other than zero: the first is smaller than a half of it, the second is larger by more than a third."
  },
  {
   "property": "C80",
   "status": "partial",
   "theorems": [
    "LCL.AgnProps.C80_disk",
    "LCL.AgnProps.C80_flux",
    "LCL.AgnProps.C80_dimming_counterexample",
    "LCL.AgnProps.C80_repeat_counterexample",
    "LCL.AgnProps.C80_rings",
    "LCL.AgnProps.C80_disk_flux"
   ],
   "note": "THE CODE REFUTES THE REST: [C80_dimming_counterexample] C80 fails: the variability should scatter the flux on both sides of the average of the disk. The random numbers lie between 0 and 1, so the object is never brighter than the average: not for any parameters, times after `t0`, wavelengths or seed. | [C80_repeat_counterexample] C80 fails: the flux should be a function of the sampled parameters, the times and the wavelengths, as it is for the other models. It also depends on how often the object was evaluated before: with the same parameters, time and wavelength a second evaluation gives another flux."
  },
  {
   "property": "C81",
   "status": "partial",
   "theorems": [
    "LCL.AgnProps.C81_values_partial",
    "LCL.AgnProps.C81_law_counterexample",
    "LCL.AgnProps.C81_normalisation_partial"
   ],
   "note": "PROVED PART: C81, what holds: a value for each sample of the parameters; one sample is returned as a number, several as an array; other galaxy types are rejected. What is missing: the value is not that of the broken power law (`C81_law_counterexample`). | C81. At the break the value is twice the normalisation of the galaxy type, `10 ** -2.13` for red and `10 ** -1.65` for blue galaxies, whatever the slopes. THE CODE REFUTES THE REST: [C81_law_counterexample] C81 fails: the distribution should be a broken power law, `xi / ((r / br) ^ d1 + (r / br) ^ d2)`, that falls above the break. The code multiplies by the sum instead of dividing by it, so for a positive upper slope the value at `n` times the break is at least `n ^ d2` times the normalisation, where the law gives at most `n ^ -d2` times it."
  },
  {
   "property": "C82",
   "status": "proved",
   "theorems": [
    "LCL.BasicProps.C82_constant",
    "LCL.BasicProps.C82_step",
    "LCL.BasicProps.C82_linear",
    "LCL.BasicProps.C82_linear_bounds",
    "LCL.BasicProps.C82_sine",
    "LCL.BasicProps.C82_step_missing"
   ],
   "note": ""
  },
  {
   "property": "C83",
   "status": "partial",
   "theorems": [
    "LCL.BasicProps.C83_init_partial",
    "LCL.BasicProps.C83_two_counterexample",
    "LCL.BasicProps.C83_table",
    "LCL.BasicProps.C83_evaluate",
    "LCL.BasicProps.C83_keyword_counterexample",
    "LCL.BasicProps.C83_bandflux"
   ],
   "note": "PROVED PART: C83, what holds of the constructor. A list of two-row arrays is accepted exactly when it is not empty and every array has at least two wavelengths in increasing order, and kept as it is; a single two-row array counts as a list of one; everything else raises ValueError. What is missing: a three-dimensional array of such tables, accepted for other numbers of tables, is rejected if it holds exactly two of them (`C83_two_counterexample`). THE CODE REFUTES THE REST: [C83_two_counterexample] C83 fails: an array of exactly two tables is rejected, whatever the tables. | [C83_keyword_counterexample] C83 fails: the other models ignore keyword arguments they do not know, such as the position of the observation. A static spectrum, asked within its wavelength range, raises TypeError."
  },
  {
   "property": "C84",
   "status": "partial",
   "theorems": [
    "LCL.BasicProps.C84_profile_partial",
    "LCL.BasicProps.C84_units_counterexample"
   ],
   "note": "PROVED PART: C84, what holds: the flux of the galaxy in a direction is the brightness at the centre times a Gaussian of the angle from the centre, the same at all times and wavelengths; without a direction it is the brightness of the centre. What is missing: the standard deviation is documented in degrees, but it is compared with the angle in radians (`C84_units_counterexample`). THE CODE REFUTES THE REST: [C84_units_counterexample] C84 fails: one standard deviation north of the centre (given in degrees) the galaxy should have faded by the factor `exp (-1/2)`; it has faded by less than two parts in ten thousand."
  },
  {
   "property": "C85",
   "status": "partial",
   "theorems": [
    "LCL.BasicProps.C85_spline_partial",
    "LCL.BasicProps.C85_order_counterexample"
   ],
   "note": "PROVED PART: C85, what holds: for times and wavelengths in order the spectrum is the amplitude times the spline at the time since `t0` (an unset `t0` counts as zero). What is missing: other models take the times in any order (`C85_order_counterexample`). THE CODE REFUTES THE REST: [C85_order_counterexample] C85 fails: the same two observations, one after the other or in the other order; the second call is rejected."
  },
  {
   "property": "C86",
   "status": "partial",
   "theorems": [
    "LCL.RandomProps.C86_scalar",
    "LCL.RandomProps.C86_draws_distinct",
    "LCL.RandomProps.C86_draws_before",
    "LCL.RandomProps.C86_array_partial",
    "LCL.RandomProps.C86_size_counterexample",
    "LCL.RandomProps.C86_init"
   ],
   "note": "PROVED PART: C86, with a size: if the function needs no parameters, or for one sample, the result has an axis for the samples followed by the axes of the size; every entry has its own draw. What is missing: with parameters and several samples the code hands numpy arrays with one value for each sample, which numpy lines up with the last axis (`C86_size_counterexample`). THE CODE REFUTES THE REST: [C86_size_counterexample] C86 fails: with a parameter, several samples and a vector of `k` numbers for each sample, the call is rejected unless `k` is the number of samples; then the `j`-th number of every sample is drawn with the parameters of sample `j`."
  },
  {
   "property": "C87",
   "status": "partial",
   "theorems": [
    "LCL.RandomProps.C87_honoured_partial",
    "LCL.RandomProps.C87_bilby_counterexample"
   ],
   "note": "PROVED PART: C87, what holds: given a generator, the numpy and scipy nodes and the host mass node draw from it alone (the result does not depend on the node's own generator, which is left as it was); without one they use and advance their own, with the same result for the same generator state. What is missing: the bilby node (`C87_bilby_counterexample`) and the others that draw from a global generator. THE CODE REFUTES THE REST: [C87_bilby_counterexample] C87 fails for bilby priors: the result does not depend on the caller's generator at all, and it changes with the state of the global generator: for any prior whose draws can differ, and any caller's generator, there are two global states with different results."
  },
  {
   "property": "C88",
   "status": "partial",
   "theorems": [
    "LCL.RandomProps.C88_bilby",
    "LCL.RandomProps.C88_inverse",
    "LCL.RandomProps.C88_hostmass",
    "LCL.RandomProps.C88_density",
    "LCL.RandomProps.C88_flow_partial",
    "LCL.RandomProps.C88_conditional_counterexample"
   ],
   "note": "PROVED PART: C88, pzflow: without conditional columns every output has a value for each sample, the same row of the flow for all of them; with conditional columns (and several samples) the row of sample `i` is drawn for the inputs of sample `i`. A conditional column that is not given raises at construction. What is missing: conditional flows with one sample (`C88_conditional_counterexample`). THE CODE REFUTES THE REST: [C88_conditional_counterexample] C88 fails: a conditional flow cannot be sampled once."
  },
  {
   "property": "C89",
   "status": "partial",
   "theorems": [
    "LCL.ExtinctionProps.C89_constructor",
    "LCL.ExtinctionProps.C89_evaluate",
    "LCL.ExtinctionProps.C89_factor",
    "LCL.ExtinctionProps.C89_missing",
    "LCL.ExtinctionProps.C89_bandflux_counterexample",
    "LCL.ExtinctionProps.C89_host_and_foreground_counterexample",
    "LCL.ExtinctionProps.C89_parameters"
   ],
   "note": "THE CODE REFUTES THE REST: [C89_bandflux_counterexample] C89 fails for bandflux models: an extinction effect can be added to one, but every evaluation whose bandfluxes can be computed then raises NotImplementedError. | [C89_host_and_foreground_counterexample] C89 fails for a source with dust both in its host and in the foreground: both effects read the parameter \"ebv\" of the model, and the second one's value is not stored, so the foreground acts with the E(B-V) of the host."
  },
  {
   "property": "C90",
   "status": "proved",
   "theorems": [
    "LCL.LensProps.C90_magnification",
    "LCL.LensProps.C90_constructor",
    "LCL.LensProps.C90_evaluate",
    "LCL.LensProps.C90_bandfluxes"
   ],
   "note": ""
  },
  {
   "property": "C91",
   "status": "proved",
   "theorems": [
    "LCL.WhiteNoiseProps.C91_spectra",
    "LCL.WhiteNoiseProps.C91_bandfluxes",
    "LCL.WhiteNoiseProps.C91_invalid",
    "LCL.WhiteNoiseProps.C91_generator",
    "LCL.WhiteNoiseProps.C91_evaluate"
   ],
   "note": ""
  },
  {
   "property": "C92",
   "status": "partial",
   "theorems": [
    "LCL.SeededProps.C92_seeded_partial",
    "LCL.SeededProps.C92_white_noise_counterexample"
   ],
   "note": "PROVED PART: C92, the part that holds: with a generator given, a simulation of the same sampled states from the same generator gives the same result and leaves the generator in the same state, whatever the entropy of the system, if the evaluation of the model draws no random numbers. Missing: models and effects that draw random numbers when they are evaluated (see `C92_white_noise_counterexample`). THE CODE REFUTES THE REST: [C92_white_noise_counterexample] C92 fails for a model with white noise: the generator given to simulate_lightcurves does not reach the evaluation, so the fluxes come from the entropy of the system: two runs with the same generator differ whenever the entropies give different draws, and runs with different generators agree when the entropy does."
  },
  {
   "property": "C93",
   "status": "proved",
   "theorems": [
    "LCL.DimmingProps.C93_evaluate",
    "LCL.DimmingProps.C93_bandflux",
    "LCL.DimmingProps.C93_missing"
   ],
   "note": ""
  },
  {
   "property": "C94",
   "status": "partial",
   "theorems": [
    "LCL.SnCoordProps.C94_position",
    "LCL.SnCoordProps.C94_near_pole",
    "LCL.SnCoordProps.C94_successive",
    "LCL.SnCoordProps.C94_generator_counterexample",
    "LCL.SnCoordProps.C94_single_counterexample",
    "LCL.SnCoordProps.C94_integer_counterexample"
   ],
   "note": "THE CODE REFUTES THE REST: [C94_generator_counterexample] C94 fails for the generator: what is passed as `rng_info` has no influence, and with the same generator passed two global states whose first draws are 0 (north) and 1/2 (south) give different declinations. | [C94_single_counterexample] C94 fails for one sample: the outputs are arrays of one number, not numbers as those of the other nodes. | [C94_integer_counterexample] C94 and C95 fail for constants that are not floats: a Hubble constant given as an integer is rejected as not constant."
  },
  {
   "property": "C95",
   "status": "proved",
   "theorems": [
    "LCL.SnCoordProps.C95_constants",
    "LCL.SnCoordProps.C95_inverse_square"
   ],
   "note": ""
  },
  {
   "property": "C96",
   "status": "partial",
   "theorems": [
    "LCL.PhysicalInitProps.C96_host_counterexample",
    "LCL.PhysicalInitProps.C96_cosmology",
    "LCL.PhysicalInitProps.C96_constant",
    "LCL.PhysicalInitProps.C96_keyword_counterexample",
    "LCL.PhysicalInitProps.C96_parameters",
    "LCL.PhysicalInitProps.C96_physical",
    "LCL.PhysicalInitProps.C96_host"
   ],
   "note": "THE CODE REFUTES THE REST: [C96_host_counterexample] A supernova host with a host mass and a cosmology can be built, but sampling it raises TypeError (the general statement is `C96_keyword_counterexample`). | [C96_keyword_counterexample] C96 fails for models with further keyword arguments: they are all passed on to the function that computes the distance, which rejects them. However the redshift, the cosmology and the argument are chosen, the constructor succeeds but no state can be sampled."
  },
  {
   "property": "C97",
   "status": "partial",
   "theorems": [
    "LCL.SnProps.C97_repeatable",
    "LCL.SnProps.C97_value",
    "LCL.SnProps.C97_outside",
    "LCL.SnProps.C97_init",
    "LCL.SnProps.C97_set",
    "LCL.SnProps.C97_set_counterexample"
   ],
   "note": "THE CODE REFUTES THE REST: [C97_set_counterexample] C97 fails after a failing `set`: giving `set` a parameter that the source does not have (such as the wrapper's own `t0`) raises KeyError, but the name stays registered, and from then on every spectrum, at every state, raises."
  },
  {
   "property": "C98",
   "status": "proved",
   "theorems": [
    "LCL.LclibTemplateProps.C98_nonperiodic",
    "LCL.LclibTemplateProps.C98_periodic",
    "LCL.LclibTemplateProps.C98_rejected"
   ],
   "note": ""
  },
  {
   "property": "C99",
   "status": "partial",
   "theorems": [
    "LCL.MultiTemplateProps.C99_bandflux",
    "LCL.MultiTemplateProps.C99_sed_partial",
    "LCL.MultiTemplateProps.C99_baseline",
    "LCL.MultiTemplateProps.C99_file",
    "LCL.MultiTemplateProps.C99_other_filter_counterexample"
   ],
   "note": "PROVED PART: C99: the spectrum, when no filter of the model faintly lets through a wavelength significant in another. For the selected set of curves and every filter of the model, the spectrum sampled on the filter's wavelengths and integrated through its passband, or sampled on the group's grid and integrated by the group, gives the curve's value if the set has a curve in the filter and zero if only other sets have one. Missing: as in `C50_sed_partial`; and for a filter only other sets have, the bandfluxes of `C99_bandflux` raise instead of giving the zero (`C99_other_filter_counterexample`). THE CODE REFUTES THE REST: [C99_other_filter_counterexample] C99 (the hypotheses are met, and the disagreement): a model of two sets of curves, the first in band `a` only, the second in `a` and `b`. With the first selected, the spectrum's bandflux in `b` is zero, but asking for the bandflux in `b` raises ValueError."
  },
  {
   "property": "C100",
   "status": "partial",
   "theorems": [
    "LCL.PointingProps.C100_offset_partial",
    "LCL.PointingProps.C100_centre",
    "LCL.PointingProps.C100_radius",
    "LCL.PointingProps.C100_integer_counterexample",
    "LCL.PointingProps.C100_single_counterexample",
    "LCL.PointingProps.C100_pole_counterexample"
   ],
   "note": "PROVED PART: C100, for a positive radius and Pointing.columns of floats, from any position of the cursor (hence after any history of calls). A call either takes whole rows of the survey, one per sample (in order: the next ones), stores their times unchanged and stores positions that are at most the radius away from the row's pointing, measured on the sky; or, in order, the rows have run out, the call raises `IndexError` and nothing has changed. A declination stays between -90 and 90 when the pointing is at least the radius away from the poles. Nothing but the three outputs changes, and those the user fixed do not. THE CODE REFUTES THE REST: [C100_integer_counterexample] C100 is false of integer columns: with two samples the second step raises `TypeError`, and the state already holds the pointings. | [C100_single_counterexample] C100 is false of one sample: the position is stored as an array of one number, while the time is a number. | [C100_pole_counterexample] A generator whose first draws (the distances) and second draws (the angles) are always one quarter: the offset is half the radius towards growing declination, so a pointing at the pole is moved beyond it."
  },
  {
   "property": "C101",
   "status": "partial",
   "theorems": [
    "LCL.PersistProps.C101_roundtrip_partial",
    "LCL.PersistProps.C101_guard",
    "LCL.PersistProps.C101_footprint_counterexample",
    "LCL.PersistProps.C101_names_counterexample",
    "LCL.PersistProps.C101_clash_counterexample",
    "LCL.PersistProps.C101_survey"
   ],
   "note": "PROVED PART: C101. A table of any class, after any history of operations, written to a parquet file and read again has the same columns, the same index labels and the same survey values, lists the filters of its rows, and answers every search as before (if it has no detector footprint, which is not saved). Proved for tables in which reading renames no column and derives no zero points (`C101_clash_counterexample`, `C101_names_counterexample`, `C101_footprint_counterexample` for the rest). THE CODE REFUTES THE REST: [C101_footprint_counterexample] C101 fails for the detector footprint: it is not saved, and the table that is read back finds observations the original one excludes. | [C101_names_counterexample] C101 fails for the original names of a table of the base class with a column map: the map is not saved. | [C101_clash_counterexample] C101 fails for a class with its own column map, when a column with an original name was added: the file is written, but cannot be read."
  },
  {
   "property": "C102",
   "status": "partial",
   "theorems": [
    "LCL.PersistProps.C102_roundtrip_partial",
    "LCL.PersistProps.C102_guard",
    "LCL.PersistProps.C102_cycles_counterexample",
    "LCL.PersistProps.C102_survey_counterexample",
    "LCL.PersistProps.C102_case_counterexample"
   ],
   "note": "PROVED PART: C102. A table of any class, after any history of operations, written to a database and read again (with the given keyword arguments) has all its columns and answers every search as before if the radius is the same (with row numbers, not labels); the file's other tables are not touched. Proved for tables whose column names differ even without case, none of them `index`; what is lost is in `C102_survey_counterexample` and `C102_cycles_counterexample`. THE CODE REFUTES THE REST: [C102_cycles_counterexample] C102 fails for repeated cycles, for every table: each cycle adds a column for the index, and the third time the table is written this raises `ValueError` and, since the caller asked to overwrite, the stored table is gone. | [C102_survey_counterexample] C102 fails for the survey values: they are not saved. A table with a radius, read back, has none, and a search by the survey's radius raises. | [C102_case_counterexample] C102 fails for column names that differ in case only: the table is fine, writing it raises `ValueError`."
  },
  {
   "property": "C103",
   "status": "partial",
   "theorems": [
    "LCL.RedbackProps.C103_init_partial",
    "LCL.RedbackProps.C103_refused",
    "LCL.RedbackProps.C103_accepted",
    "LCL.RedbackProps.C103_prior_counterexample",
    "LCL.RedbackProps.C103_value_partial",
    "LCL.RedbackProps.C103_outside_counterexample"
   ],
   "note": "PROVED PART: **C103** (partial: a name that is an output of the priors and a keyword argument is not refused, `C103_prior_counterexample`). A model that is constructed has as parameters of the redback source exactly the names of the dictionary and the outputs of the priors, each once; each is set from the dictionary if it is there and from the priors otherwise; every other parameter is what the keyword arguments make it; and the model does not apply the redshift. | **C103** (partial: only for wavelengths in the range of the redback source, see `C103_outside_counterexample`). The spectrum of a constructed model: the source is called once, with the times counted from `t0` and exactly its named parameters at their sampled values; the value at each time and wavelength is the flux density of the source converted to nJy, and no redshift is applied to times, wavelengths or flux. An exception raised by the source is passed on. THE CODE REFUTES THE REST: [C103_prior_counterexample] **C103, where the code falls short.** A name that is an output of the priors and also a keyword argument is accepted, and the keyword argument has no effect: the parameter is set from the priors. | [C103_outside_counterexample] **C103, where the code falls short.** A wavelength outside the range of the redback source is not extrapolated: `compute_sed` and `compute_sed_with_extrapolation` call each other with the same arguments until Python's recursion limit, whatever it is, is reached (the model's own range is 0 to infinity, so nothing is ever trimmed)."
  },
  {
   "property": "C104",
   "status": "proved",
   "theorems": [
    "LCL.RandomSurveyProps.C104_law",
    "LCL.RandomSurveyProps.C104_opsim",
    "LCL.RandomSurveyProps.C104_reproducible",
    "LCL.RandomSurveyProps.C104_refused",
    "LCL.RandomSurveyProps.C104_add_data",
    "LCL.RandomSurveyProps.C104_ztf"
   ],
   "note": ""
  },
  {
   "property": "C105",
   "status": "partial",
   "theorems": [
    "LCL.DustProps.C105_wrapper",
    "LCL.DustProps.C105_refused",
    "LCL.DustProps.C105_hemisphere",
    "LCL.DustProps.C105_sfd_partial",
    "LCL.DustProps.C105_sfd_counterexample"
   ],
   "note": "PROVED PART: **C105** (partial: see the counterexample below). `SFDMap` can be made when its files are in the data directory, without the archive, and when the archive can be had; afterwards the files are on disk. THE CODE REFUTES THE REST: [C105_sfd_counterexample] **C105, where the code falls short.** The files an earlier `SFDMap` downloaded are not found again: they lie in `sfddata-master`, which is not looked at, and without the archive the construction fails."
  },
  {
   "property": "C106",
   "status": "partial",
   "theorems": [
    "LCL.RomanProps.C106_rows",
    "LCL.RomanProps.C106_survey",
    "LCL.RomanProps.C106_refused",
    "LCL.RomanProps.C106_again",
    "LCL.RomanProps.C106_path_counterexample",
    "LCL.RomanProps.C106_parquet_counterexample",
    "LCL.RomanProps.C106_caller_counterexample"
   ],
   "note": "THE CODE REFUTES THE REST: [C106_path_counterexample] **C106, where the code falls short.** A path to an MA table can be given, but then no table can be made: for every frame the constructor raises UnboundLocalError. | [C106_parquet_counterexample] **C106, where the code falls short.** Every Roman table can be written to a parquet file, and none of these files can be read as a Roman table: AttributeError, since the column `BANDPASS` has been renamed. | [C106_caller_counterexample] **C106, where the code falls short.** The caller's frame is changed: its own observation times are overwritten with those of the passes."
  },
  {
   "property": "C107",
   "status": "partial",
   "theorems": [
    "LCL.BinaryProps.C107_black_body",
    "LCL.BinaryProps.C107_flux",
    "LCL.BinaryProps.C107_units_counterexample",
    "LCL.BinaryProps.C107_errors",
    "LCL.BinaryProps.C107_zero_period"
   ],
   "note": "THE CODE REFUTES THE REST: [C107_units_counterexample] **C107 is false in the documented units.** The documentation gives the semiaxis in astronomical units and the radii in solar radii; the code takes all three in cm. For every binary given in the documented units, the flux the code computes at quadrature (where nothing is hidden) is too small by a factor of at least 4.8e21, the square of the solar radius in cm."
  },
  {
   "property": "C108",
   "status": "proved",
   "theorems": [
    "LCL.SniaProps.C108_accuracy",
    "LCL.SniaProps.C108_scaling",
    "LCL.SniaProps.C108_range"
   ],
   "note": ""
  },
  {
   "property": "C109",
   "status": "partial",
   "theorems": [
    "LCL.SniaRunProps.C109_observations_partial",
    "LCL.SniaRunProps.C109_run",
    "LCL.SniaRunProps.C109_filtered_counterexample",
    "LCL.SniaRunProps.C109_generator_counterexample",
    "LCL.SniaRunProps.C109_seed_counterexample"
   ],
   "note": "PROVED PART: **C109**, what is simulated for one supernova: the observations of a table that was never filtered (rows labelled 0, 1, 2, ...) whose pointing is within 1.75 degrees and that fall into the lifetime of the supernova, 20 days before to 50 days after its `t0`, stretched by `1 + z`; with their times and filters, in the order of the table. The noise-free fluxes are those the model gives at these times and filters, the errors those the table gives for them, and there is one of each per observation. The wavelengths are those of the rest frame. THE CODE REFUTES THE REST: [C109_filtered_counterexample] **C109 fails on a filtered table**: after keeping only the second row, the row is found (as number 0), but its time is looked up under the label 0, which is gone. | [C109_generator_counterexample] **C109 fails for the generator** `rng_info`: for every model whose flux is not random, the generator given has no influence on any result; the parameters are sampled and the noise is drawn without it. | [C109_seed_counterexample] **C109 fails for reproducibility**: with the same generator given twice, the noise of the example differs, for two different states of the entropy of the system."
  },
  {
   "property": "C110",
   "status": "proved",
   "theorems": [
    "LCL.EndToEndProps.C110_fluxes",
    "LCL.EndToEndProps.C110_measured",
    "LCL.EndToEndProps.C110_redshifted",
    "LCL.EndToEndProps.C110_answers",
    "LCL.EndToEndProps.C110_succeeds"
   ],
   "note": ""
  },
  {
   "property": "C111",
   "status": "partial",
   "theorems": [
    "LCL.PbFilesProps.C111_load",
    "LCL.PbFilesProps.C111_from_file",
    "LCL.PbFilesProps.C111_sound",
    "LCL.PbFilesProps.C111_duplicate_counterexample",
    "LCL.PbFilesProps.C111_one_row_counterexample",
    "LCL.PbFilesProps.C111_default_path",
    "LCL.PbFilesProps.C111_suffix"
   ],
   "note": "THE CODE REFUTES THE REST: [C111_duplicate_counterexample] C111 fails for repeated wavelengths, which the documentation says are averaged: every file with increasing wavelengths some of which are equal raises TypeError. | [C111_one_row_counterexample] C111 fails for an ASCII file with one row: IndexError instead of the documented exception or a table."
  },
  {
   "property": "C112",
   "status": "partial",
   "theorems": [
    "LCL.PbFilesProps.C112_offline",
    "LCL.PbFilesProps.C112_fetch",
    "LCL.PbFilesProps.C112_force_counterexample",
    "LCL.PbFilesProps.C112_opsim_partial",
    "LCL.PbFilesProps.C112_same_name_counterexample"
   ],
   "note": "PROVED PART: C112. `OpSim.from_url` of a file name that is not yet on the disk reads what the URL has. THE CODE REFUTES THE REST: [C112_force_counterexample] C112 fails for `force_download=True`: an existing file is never downloaded again, whatever the network has now. | [C112_same_name_counterexample] C112 fails for two URLs that end in the same file name: after the first was used, the second one gives the first one's data, even if the download is forced."
  },
  {
   "property": "C113",
   "status": "partial",
   "theorems": [
    "LCL.PbFilesProps.C113_from_dir_partial",
    "LCL.PbFilesProps.C113_order_partial",
    "LCL.PbFilesProps.C113_same_stem_counterexample",
    "LCL.PbFilesProps.C113_relative_counterexample",
    "LCL.PbFilesProps.C113_succeeds_partial"
   ],
   "note": "PROVED PART: C113. A group read from a directory (given by an absolute path) holds exactly the passbands of the directory's files (of the filters asked for), each named after the directory and its file and made from its file's table, and no file changes; so the order in which the directory is listed does not matter. Proved for files with distinct stems; relative paths and files like g.dat beside g.txt are the counterexamples. | C113. Two listings of one directory, in different orders, give groups with the same passbands. | C113. Reading a directory given by an absolute path succeeds whenever it has a file and each of its files can be read. THE CODE REFUTES THE REST: [C113_same_stem_counterexample] C113 fails for two files with one stem (such as g.dat and g.txt): which of them is in the group depends on the order in which the directory is listed. | [C113_relative_counterexample] C113 fails for every relative path of a directory (other than the current one): the directory's path is put before each file's path a second time, and reading fails although the files are there."
  },
  {
   "property": "C114",
   "status": "partial",
   "theorems": [
    "LCL.PbFilesProps.C114_lsst",
    "LCL.PbFilesProps.C114_ztf",
    "LCL.PbFilesProps.C114_ztf_counterexample",
    "LCL.PbFilesProps.C114_roman",
    "LCL.PbFilesProps.C114_roman_counterexample",
    "LCL.PbFilesProps.C114_svo"
   ],
   "note": "THE CODE REFUTES THE REST: [C114_ztf_counterexample] C114 fails for the ZTF preset with a step or trimming: whatever is asked for is ignored. | [C114_roman_counterexample] C114 fails for the Roman preset with `units=\"micron\"` (the units it says it expects) or with `force_download` of any value: it raises, for every disk and network."
  },
  {
   "property": "C115",
   "status": "proved",
   "theorems": [
    "LCL.PbFilesProps.C115_group"
   ],
   "note": ""
  },
  {
   "property": "C116",
   "status": "partial",
   "theorems": [
    "LCL.SeedProps.C116_replay_partial",
    "LCL.SeedProps.C116_created_partial",
    "LCL.SeedProps.C116_twins_partial",
    "LCL.SeedProps.C116_tabulated_partial",
    "LCL.SeedProps.C116_tabulated_counterexample",
    "LCL.SeedProps.C116_bilby_partial",
    "LCL.SeedProps.C116_bilby_counterexample"
   ],
   "note": "PROVED PART: C116. A numpy, scipy, given-value, table, position or supernova stretch node, once seeded, gives values that depend on the seed and on its own calls without explicit generator alone: in any two sessions, with any other nodes, any earlier history of its own, any calls of other nodes in between and any calls of its own with an explicit generator, the same calls give the same values. | C116. Giving the seed to the constructor is the same as seeding the node later. | C116. Two nodes of one kind with one seed give the same values in the same calls, however their calls are interleaved. | C116. A `DistributionSampler` does so when it is not sampled with an explicit generator in between. | C116. A bilby node does so when it is the only bilby node of the session and is not sampled with an explicit generator. THE CODE REFUTES THE REST: [C116_tabulated_counterexample] C116 fails for `DistributionSampler`: a call with an explicit generator uses up the node's own draws, so that the next value is another one. | [C116_bilby_counterexample] C116 fails for bilby nodes: sampling another bilby node in between, or making another one with a seed, changes the values of the seeded node."
  },
  {
   "property": "C117",
   "status": "proved",
   "theorems": [
    "LCL.BatchProps.C117_batches",
    "LCL.BatchProps.C117_independent",
    "LCL.BatchProps.C117_spectrum",
    "LCL.BatchProps.C117_split"
   ],
   "note": ""
  },
  {
   "property": "C118",
   "status": "proved",
   "theorems": [
    "LCL.SniaSourceProps.C118_consistent",
    "LCL.SniaSourceProps.C118_magnitude",
    "LCL.SniaSourceProps.C118_ranges",
    "LCL.SniaSourceProps.C118_succeeds"
   ],
   "note": ""
  },
  {
   "property": "C119",
   "status": "partial",
   "theorems": [
    "LCL.FullRunProps.C119_sampled",
    "LCL.FullRunProps.C119_table_partial",
    "LCL.FullRunProps.C119_fluxes",
    "LCL.FullRunProps.C119_lightcurves",
    "LCL.FullRunProps.C119_clash_counterexample",
    "LCL.FullRunProps.C119_answers",
    "LCL.FullRunProps.C119_succeeds"
   ],
   "note": "PROVED PART: C119, for parameter columns whose names (dots replaced by underscores) do not clash with each other or with a standard column. The table of objects has one row per sample; `ra`, `dec`, `t0` and `z` of row `k` are the model's position, time and redshift in sample `k`, `params` is the dictionary of all parameters of all nodes in sample `k`, and the column of a requested parameter `node.param` holds that parameter's value in sample `k`. Missing: clashing names, see the counterexample. THE CODE REFUTES THE REST: [C119_clash_counterexample] C119, what is missing from the general statement: two different parameters whose names differ only in where the dot is, such as `gal_1.z` of a node `gal_1` and `gal.1_z` of a node `gal`, are written to the same column; whatever the run, that column holds the parameter requested last, and the other one is in no column of its own."
  },
  {
   "property": "C120",
   "status": "partial",
   "theorems": [
    "LCL.GraphEqProps.C120_equal_iff",
    "LCL.GraphEqProps.C120_answers_partial",
    "LCL.GraphEqProps.C120_none_counterexample",
    "LCL.GraphEqProps.C120_asymmetric_counterexample"
   ],
   "note": "PROVED PART: C120, for states that hold numbers only. The comparison of two such states always answers, and a state equals itself and its copy. Missing: states that hold None (a model without `t0` or position), see the counterexample. THE CODE REFUTES THE REST: [C120_none_counterexample] C120 fails for states that hold None: comparing a state of a model whose `x` is None with its own copy raises TypeError. | [C120_asymmetric_counterexample] C120: equality is not symmetric. There are two states with `s == t` but not `t == s` (the tolerance is relative to the right-hand side)."
  },
  {
   "property": "C121",
   "status": "partial",
   "theorems": [
    "LCL.GraphEqProps.C121_roundtrip_partial",
    "LCL.GraphEqProps.C121_equal",
    "LCL.GraphEqProps.C121_fixed_counterexample",
    "LCL.GraphEqProps.C121_single_counterexample"
   ],
   "note": "PROVED PART: C121, for states of several samples. A state saved to a file that does not exist yet, or with `overwrite=True`, and read again has the same samples and parameters, none of them fixed; no other file changes. Saving to an existing file without `overwrite` raises OSError and changes no file. Missing: states of one sample, and fixed parameters, see the counterexamples. THE CODE REFUTES THE REST: [C121_fixed_counterexample] C121 fails for fixed parameters: after saving and reading back a state with a fixed parameter, the parameter is not fixed any more (a write that the original state ignores changes it) and the states are not equal. | [C121_single_counterexample] C121 fails for one sample: a state of one number cannot be saved."
  },
  {
   "property": "C122",
   "status": "proved",
   "theorems": [
    "LCL.SniaSurveyProps.C122_lightcurves",
    "LCL.SniaSurveyProps.C122_succeeds"
   ],
   "note": ""
  },
  {
   "property": "C123",
   "status": "proved",
   "theorems": [
    "LCL.Salt2FilesProps.C123_spectrum",
    "LCL.Salt2FilesProps.C123_rejects"
   ],
   "note": ""
  },
  {
   "property": "C124",
   "status": "partial",
   "theorems": [
    "LCL.StaticFilesProps.C124_file_partial",
    "LCL.StaticFilesProps.C124_file_rejects",
    "LCL.StaticFilesProps.C124_synphot_partial",
    "LCL.StaticFilesProps.C124_dat_counterexample",
    "LCL.StaticFilesProps.C124_blueshift_counterexample"
   ],
   "note": "PROVED PART: C124, what holds of files. A spectrum written with `write_numpy_data` as a two-column array to a `.npy`, `.npz`, `.csv`, `.ecsv` or `.txt` file and loaded with `from_file` gives a model that shows that spectrum. The full property has no condition on the suffix (`C124_dat_counterexample`). | C124. A spectrum taken from a synphot model in its rest frame shows, at the wavelengths it was sampled at, the photon flux of the model times the energy of a photon, as a flux density in nJy; a redshifted synphot model is rejected. THE CODE REFUTES THE REST: [C124_dat_counterexample] C124 fails for `.dat` files: what `write_numpy_data` writes there `from_file` cannot read. | [C124_blueshift_counterexample] C124 fails for blueshifted synphot models: one that is not in its rest frame is accepted if its redshift is negative."
  },
  {
   "property": "C125",
   "status": "proved",
   "theorems": [
    "LCL.ScaledProps.C125_spectrum",
    "LCL.ScaledProps.C125_order",
    "LCL.ScaledProps.C125_dimming",
    "LCL.ScaledProps.C125_dust",
    "LCL.ScaledProps.C125_lens",
    "LCL.ScaledProps.C125_survey"
   ],
   "note": ""
  },
  {
   "property": "C126",
   "status": "partial",
   "theorems": [
    "LCL.CompositeProps.C126_flux",
    "LCL.CompositeProps.C126_dimming",
    "LCL.CompositeProps.C126_lens",
    "LCL.CompositeProps.C126_sizes",
    "LCL.CompositeProps.C126_states",
    "LCL.CompositeProps.C126_survey",
    "LCL.CompositeProps.C126_nested_counterexample"
   ],
   "note": "THE CODE REFUTES THE REST: [C126_nested_counterexample] C126, the code disagrees: sampling a composite samples its objects but not the objects of its objects. The model of a composite of a composite of a bandflux model with a dimming effect samples without an error, and then raises an error whenever it is evaluated in a sampled state, whatever the times and filters, although every parameter of every object is set."
  },
  {
   "property": "C127",
   "status": "partial",
   "theorems": [
    "LCL.ZtfPersistProps.C127_roundtrip_partial",
    "LCL.ZtfPersistProps.C127_dates_counterexample",
    "LCL.ZtfPersistProps.C127_default_counterexample"
   ],
   "note": "PROVED PART: C127, where it holds: a ZTF table without a column `obsdate` (the times were given as `obsmjd` or `time`), with none of the original column names among its columns and with its zero points, is read back from a parquet file with the same columns, row labels and survey values, and finds the same observations; and from a database if the table is named in the query. Missing: tables with dates, and reading by default what was written by default; see the counterexamples. THE CODE REFUTES THE REST: [C127_dates_counterexample] C127, the code disagrees: a ZTF table made from exposures with dates (`obsdate`, as in the survey's own data and in `create_random_ztf_obs_data`) is written without an error, but no such file can ever be read: the constructor makes a column `obsmjd` from the dates once more and finds `time` taken. This holds for every such table, parquet file, database and way of reading dates. | [C127_default_counterexample] C127, the code disagrees: `write_db` writes the table `observations`, `ZTFObsTable.from_db` reads `exposures`: no table written by default into a new file is read by default."
  },
  {
   "property": "C128",
   "status": "partial",
   "theorems": [
    "LCL.GraphHeapProps.C128_values",
    "LCL.GraphHeapProps.C128_copy_partial",
    "LCL.GraphHeapProps.C128_force_copy_partial",
    "LCL.GraphHeapProps.C128_linked",
    "LCL.GraphHeapProps.C128_single_counterexample",
    "LCL.GraphHeapProps.C128_single_force_counterexample"
   ],
   "note": "PROVED PART: C128, for states of several samples. A copy is deep: it shows what the state shows, and goes on showing it whatever a program does that does not name the copy, with in-place writes into any arrays it has or gets, into the state's own and those it was made from; and nothing a program does with the copy and what it gets from it changes what the state, or any other state that was there, shows. Missing: states of one sample, see the counterexample. | C128, for states of several samples. A parameter that was set with `force_copy` (and is not fixed) shows the given value, a number repeated for every sample, and goes on showing it whatever a program does that does not name the state, with writes into the array it was set from. Missing: states of one sample, see the counterexample. THE CODE REFUTES THE REST: [C128_single_counterexample] C128, the code disagrees: the copy of a state of one sample is not deep. For every such state with an array in it (several numbers for the one sample), a program that only gets the array from the original state and writes into it changes what the copy shows. | [C128_single_force_counterexample] C128, the code disagrees: in a state of one sample `force_copy` is ignored, for every array."
  },
  {
   "property": "C129",
   "status": "partial",
   "theorems": [
    "LCL.GraphHeapProps.C129_values_partial",
    "LCL.GraphHeapProps.C129_linked_counterexample",
    "LCL.GraphHeapProps.C129_draws"
   ],
   "note": "PROVED PART: C129, where it holds. A `GivenValueList` that is made from a list or an array has its values; whatever a program does without writing into arrays (sampling from it any number of times into any states included) it keeps them; and one made from a list keeps them in a program that writes into arrays, too, if it is not sampled from. Missing: writes into the array it was made from, and into the arrays of states sampled from it, see the counterexamples. THE CODE REFUTES THE REST: [C129_linked_counterexample] C129, the code disagrees. A node made from an array is linked to it: a write into the array changes the values the node gives. And sampling several values links the state to the node, however it was made: here a node made from a list gives 1, 2, 3; three samples are taken and doubled in place in the state; after a reset the node gives 2, 4, 6."
  },
  {
   "property": "C130",
   "status": "partial",
   "theorems": [
    "LCL.PassbandShareProps.C130_calls",
    "LCL.PassbandShareProps.C130_others",
    "LCL.PassbandShareProps.C130_lookup",
    "LCL.PassbandShareProps.C130_group_flux_partial",
    "LCL.PassbandShareProps.C130_example",
    "LCL.PassbandShareProps.C130_shared_counterexample"
   ],
   "note": "PROVED PART: C130 (the group's own band fluxes). If the last call on the group returned, and no passband of the group was reprocessed since by a call on the passband or on another group, then the group's grid is the strictly increasing list of its passbands' wavelengths, and the band fluxes it computes from spectra sampled on the grid are those of its passbands as they are now (with the separation C29 asks for). Missing: groups whose passbands were reprocessed elsewhere, see `C130_shared_counterexample`. THE CODE REFUTES THE REST: [C130_shared_counterexample] C130 is false for passbands reprocessed elsewhere: two groups are built from one passband on 100, 150 and 300 \u00c5. After `process_transmission_tables(delta_wave=100)` on the second, the passband is on 100, 200 and 300 \u00c5; the first still has its old grid, so the fluxes of the spectrum `f(w) = w` on that grid are weighted as if they were taken at 100, 200 and 300 \u00c5, and its band flux is wrong, with no error. The group built now from the same passband has it right."
  },
  {
   "property": "C131",
   "status": "partial",
   "theorems": [
    "LCL.TemplateShareProps.C131_build",
    "LCL.TemplateShareProps.C131_history_partial",
    "LCL.TemplateShareProps.C131_shared_counterexample"
   ],
   "note": "PROVED PART: **C131** (history). The attributes of a light curve, and so all its fluxes, stay as they are through any further operations, raising ones included, as long as the dictionary of baselines it was given, if any, is neither written to nor given to another light curve in magnitudes. In particular nothing at all changes a light curve built without a dictionary. Missing: those two cases, see `C131_shared_counterexample`. THE CODE REFUTES THE REST: [C131_shared_counterexample] **C131** is false for a dictionary given to two light curves in magnitudes: the caller's baseline of magnitude `m` is replaced by its flux when the first is built; building the second, from the same dictionary, converts it again, and from then on both have the flux of the flux of `m` as their baseline. For `m = 31.4` the first gives 1 nJy before and `10^12.16` nJy after."
  },
  {
   "property": "C132",
   "status": "proved",
   "theorems": [
    "LCL.TranslateProps.C132_basic_models",
    "LCL.TranslateProps.C132_static",
    "LCL.TranslateProps.C132_salt2",
    "LCL.TranslateProps.C132_spline",
    "LCL.TranslateProps.C132_sncosmo",
    "LCL.TranslateProps.C132_periodic",
    "LCL.TranslateProps.C132_binary",
    "LCL.TranslateProps.C132_template",
    "LCL.TranslateProps.C132_effects",
    "LCL.TranslateProps.C132_add_effect",
    "LCL.TranslateProps.C132_simulation",
    "LCL.TranslateProps.C132_models",
    "LCL.TranslateProps.C132_mask",
    "LCL.TranslateProps.C132_example"
   ],
   "note": ""
  },
  {
   "property": "C133",
   "status": "proved",
   "theorems": [
    "LCL.NarrowProps.C133_filter",
    "LCL.NarrowProps.C133_window",
    "LCL.NarrowProps.C133_surveys",
    "LCL.NarrowProps.C133_radius",
    "LCL.NarrowProps.C133_footprint",
    "LCL.NarrowProps.C133_sound",
    "LCL.NarrowProps.C133_example"
   ],
   "note": ""
  },
  {
   "property": "C134",
   "status": "partial",
   "theorems": [
    "LCL.SamplerShareProps.C134_build",
    "LCL.SamplerShareProps.C134_history_partial",
    "LCL.SamplerShareProps.C134_lists",
    "LCL.SamplerShareProps.C134_caller_partial",
    "LCL.SamplerShareProps.C134_weights_counterexample",
    "LCL.SamplerShareProps.C134_write_counterexample"
   ],
   "note": "PROVED PART: **C134** (histories). After a sampler has been built, it keeps its values and weights whatever is done (further samplers may be built from the same arrays), as long as the caller does not assign to the arrays it was built from. | **C134** (the caller's arrays). Building a sampler changes no array of values, and no float array but the one given as weights. THE CODE REFUTES THE REST: [C134_weights_counterexample] **C134** fails for the weights: building a sampler with the caller's weights 2 and 6 turns the caller's array into 1/4 and 3/4. | [C134_write_counterexample] **C134** fails when the caller goes on using its arrays: after an assignment to the weights array every `compute` of the sampler raises `ValueError`; after an assignment to the values array it returns the new value."
  },
  {
   "property": "C135",
   "status": "proved",
   "theorems": [
    "LCL.RearrangeProps.C135_independent"
   ],
   "note": ""
  },
  {
   "property": "C136",
   "status": "proved",
   "theorems": [
    "LCL.RearrangeProps.C136_rearranged",
    "LCL.RearrangeProps.C136_surveys",
    "LCL.RearrangeProps.C136_rows",
    "LCL.RearrangeProps.C136_joined",
    "LCL.RearrangeProps.C136_filter",
    "LCL.RearrangeProps.C136_split",
    "LCL.RearrangeProps.C136_example"
   ],
   "note": ""
  },
  {
   "property": "C137",
   "status": "partial",
   "theorems": [
    "LCL.DirectProps.C137_sed",
    "LCL.DirectProps.C137_bandfluxes",
    "LCL.DirectProps.C137_fresh",
    "LCL.DirectProps.C137_fresh_bandfluxes",
    "LCL.DirectProps.C137_value",
    "LCL.DirectProps.C137_keywords",
    "LCL.DirectProps.C137_integral",
    "LCL.DirectProps.C137_answers",
    "LCL.DirectProps.C137_keywords_counterexample"
   ],
   "note": "THE CODE REFUTES THE REST: [C137_keywords_counterexample] C137 does not hold as stated (keywords): for every model and graph, a call of evaluate_sed with a further keyword and without a state raises TypeError, whatever the keyword, though the documentation has further keywords handed to the computation of the spectrum."
  },
  {
   "property": "C138",
   "status": "proved",
   "theorems": [
    "LCL.SkyTurnProps.C138_separation",
    "LCL.SkyTurnProps.C138_wrap",
    "LCL.SkyTurnProps.C138_turned_match",
    "LCL.SkyTurnProps.C138_turned",
    "LCL.SkyTurnProps.C138_radius",
    "LCL.SkyTurnProps.C138_simulate"
   ],
   "note": ""
  },
  {
   "property": "C139",
   "status": "proved",
   "theorems": [
    "LCL.MocProps.C139_near",
    "LCL.MocProps.C139_reaches",
    "LCL.MocProps.C139_observed",
    "LCL.MocProps.C139_refused",
    "LCL.MocProps.C139_succeeds"
   ],
   "note": ""
  },
  {
   "property": "C140",
   "status": "proved",
   "theorems": [
    "LCL.BrighterProps.C140_fluxes",
    "LCL.BrighterProps.C140_brighter",
    "LCL.BrighterProps.C140_average",
    "LCL.BrighterProps.C140_normal"
   ],
   "note": ""
  },
  {
   "property": "C141",
   "status": "proved",
   "theorems": [
    "LCL.RecordedProps.C141_restores",
    "LCL.RecordedProps.C141_answers",
    "LCL.RecordedProps.C141_flux",
    "LCL.RecordedProps.C141_all"
   ],
   "note": ""
  },
  {
   "property": "C142",
   "status": "partial",
   "theorems": [
    "LCL.AnalyseProps.C142_detections_partial",
    "LCL.AnalyseProps.C142_dropped_counterexample",
    "LCL.AnalyseProps.C142_drop"
   ],
   "note": "PROVED PART: C142. The table a simulation returns can always be augmented. The lightcurve in row `k` of the result has one entry for each row of each survey that object `k` is seen in, in the order of the surveys and of their rows; every entry is the measurement of the model's flux in that row, and is graded by the measured flux and its error; rows and all other columns are unchanged. If every object has a non-zero t0, every entry's relative time is its time minus the t0 of its own object. Missing: tables from which objects without observations were dropped first, and the detection flag of entries that are not graded, see the counterexamples. THE CODE REFUTES THE REST: [C142_dropped_counterexample] C142 is false for the documented sequence simulate, drop, augment: take any table labelled 0, 1, 2, \u2026 whose last object was observed and one of whose objects was not, and whose t0 are non-zero. `results_drop_empty` succeeds, and `results_augment_lightcurves` of what is left raises IndexError: the labels of the rows are used as positions."
  },
  {
   "property": "C143",
   "status": "partial",
   "theorems": [
    "LCL.IterateProps.C143_iterators",
    "LCL.IterateProps.C143_next_counterexample"
   ],
   "note": "THE CODE REFUTES THE REST: [C143_next_counterexample] C143 is false of `next(state)`: whatever happened before, it gives sample 0 of the state, so a program that steps through a state with `next` gets sample 0 for ever and no StopIteration."
  },
  {
   "property": "C144",
   "status": "proved",
   "theorems": [
    "LCL.AskAnyProps.C144_parts",
    "LCL.AskAnyProps.C144_samples",
    "LCL.AskAnyProps.C144_fresh",
    "LCL.AskAnyProps.C144_independent",
    "LCL.AskAnyProps.C144_flux",
    "LCL.AskAnyProps.C144_dimming",
    "LCL.AskAnyProps.C144_static"
   ],
   "note": ""
  },
  {
   "property": "C145",
   "status": "proved",
   "theorems": [
    "LCL.SumOfPartsProps.C145_sum",
    "LCL.SumOfPartsProps.C145_plain",
    "LCL.SumOfPartsProps.C145_survey"
   ],
   "note": ""
  },
  {
   "property": "C146",
   "status": "partial",
   "theorems": [
    "LCL.BayesnSedProps.C146_value",
    "LCL.BayesnSedProps.C146_rows",
    "LCL.BayesnSedProps.C146_oneByOne",
    "LCL.BayesnSedProps.C146_amplitude",
    "LCL.BayesnSedProps.C146_dust_partial",
    "LCL.BayesnSedProps.C146_av_counterexample",
    "LCL.BayesnSedProps.C146_rv_counterexample",
    "LCL.BayesnSedProps.C146_missing"
   ],
   "note": "PROVED PART: C146. Dust: against the same supernova without it, every entry at wavelength `w` is dimmed by the factor `10 ^ (-0.4 \u00b7 A)` with `A = A(w)/A(V) \u00b7 R_V \u00b7 Av / Rv`, where `R_V` is the ratio of the extinction law. If that ratio is the given `Rv`, this is `A = A(w)/A(V) \u00b7 Av`, the dust described by `Av` and `Rv`. THE CODE REFUTES THE REST: [C146_av_counterexample] C146 fails for other values of `Rv`: the law's own ratio is used, so where the law gives the extinction of the V band (A(w)/A(V) = 1), a supernova with one magnitude of extinction, `Av = 1`, is dimmed by `R_V / Rv` magnitudes (1.55 for F99 and Rv = 2), not by one. | [C146_rv_counterexample] C146: nor does `Rv` change the wavelength dependence of the dust: two supernovae that differ only in `Av` and `Rv`, with the same quotient, have the same spectra."
  },
  {
   "property": "C147",
   "status": "proved",
   "theorems": [
    "LCL.RandomRunProps.C147_named",
    "LCL.RandomRunProps.C147_mixture"
   ],
   "note": ""
  },
  {
   "property": "C148",
   "status": "proved",
   "theorems": [
    "LCL.CoverageRunProps.C148_positions",
    "LCL.CoverageRunProps.C148_observed"
   ],
   "note": ""
  },
  {
   "property": "C149",
   "status": "proved",
   "theorems": [
    "LCL.PointingRunProps.C149_positions",
    "LCL.PointingRunProps.C149_observed"
   ],
   "note": ""
  },
  {
   "property": "C150",
   "status": "proved",
   "theorems": [
    "LCL.RectProps.C150_match",
    "LCL.RectProps.C150_search",
    "LCL.RectProps.C150_disc",
    "LCL.RectProps.C150_turns",
    "LCL.RectProps.C150_run"
   ],
   "note": ""
  }
 ]
}