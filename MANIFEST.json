{
 "claims": [
  {
   "property": "C01",
   "status": "proved",
   "theorems": [
    "Gtda.Props.C01_sliding_window_transform",
    "Gtda.Props.C01_last_sample"
   ],
   "note": ""
  },
  {
   "property": "C02",
   "status": "partial",
   "theorems": [
    "Gtda.Props.C02_sliding_resample_aligned_partial",
    "Gtda.Props.C02_size_one_resample_empty",
    "Gtda.Props.C02_refuted"
   ],
   "note": "True for size >= 2 (C02_sliding_resample_aligned_partial); false at size = 1, where resample returns [] (C02_refuted)."
  },
  {
   "property": "C03",
   "status": "proved",
   "theorems": [
    "Gtda.Props.C03_slice_windows"
   ],
   "note": ""
  },
  {
   "property": "C04",
   "status": "proved",
   "theorems": [
    "Gtda.Props.C04_takens_univariate",
    "Gtda.Props.C04_last_value"
   ],
   "note": ""
  },
  {
   "property": "C05",
   "status": "partial",
   "theorems": [
    "Gtda.Props.C05_takens_resample_aligned_partial",
    "Gtda.Props.C05_dimension_one_resample_empty",
    "Gtda.Props.C05_refuted"
   ],
   "note": "True for dimension >= 2; false at dimension = 1, where resample returns [] (C05_refuted)."
  },
  {
   "property": "C06",
   "status": "proved",
   "theorems": [
    "Gtda.Props.C06_takens_multi",
    "Gtda.Props.C06_takens_flatten_layout"
   ],
   "note": "3D collections (n_samples, n_variables, n_timestamps); tensor-valued series are not modelled."
  },
  {
   "property": "C07",
   "status": "proved",
   "theorems": [
    "Gtda.Props.C07_takens_optimal",
    "Gtda.Props.C07_max_dimension_one_raises",
    "Gtda.Props.C07_search_dimension_ge_two"
   ],
   "note": "Scores are parameters. max_dimension = 1 shown to raise ValueError."
  },
  {
   "property": "C08",
   "status": "proved",
   "theorems": [
    "Gtda.Props.C08_labeller_aligned",
    "Gtda.Props.C08_labeller_short"
   ],
   "note": ""
  },
  {
   "property": "C09",
   "status": "proved",
   "theorems": [
    "Gtda.Props.C09_classify_sorted",
    "Gtda.Props.C09_labeller_classes",
    "Gtda.Props.C09_refuted_unsorted",
    "Gtda.Props.C09_empty_percentiles_raise"
   ],
   "note": "Ascending percentile lists; unsorted lists refuted by witness, empty list shown to raise IndexError."
  },
  {
   "property": "C10",
   "status": "proved",
   "theorems": [
    "Gtda.Props.C10_resampler",
    "Gtda.Props.C10_documented_length_refuted"
   ],
   "note": "The documented output length n // period is refuted; the true length is the ceiling."
  },
  {
   "property": "C11",
   "status": "proved",
   "theorems": [
    "Gtda.Props.C11_stationarizer_return",
    "Gtda.Props.C11_stationarizer_log_return"
   ],
   "note": ""
  },
  {
   "property": "C12",
   "status": "proved",
   "theorems": [
    "Gtda.Props.C12_permutation_entropy",
    "Gtda.Props.C12_pattern_unique",
    "Gtda.Props.C12_bounds_invariance"
   ],
   "note": "Ties: np.argsort's default algorithm is modelled as stable."
  },
  {
   "property": "C13",
   "status": "proved",
   "theorems": [
    "Gtda.Props.C13_pearson_dissimilarity"
   ],
   "note": "np.cov and np.corrcoef are modelled in exact arithmetic; the clipping to [-1, 1] is shown to be the identity."
  },
  {
   "property": "C14",
   "status": "proved",
   "theorems": [
    "Gtda.Pipeline.C14_fit_transform_resample",
    "Gtda.Pipeline.C14_fit_transform",
    "Gtda.Pipeline.C14_score_on_training_data",
    "Gtda.Pipeline.C14_refuted_no_fit_transform"
   ],
   "note": "Steps obey the laws of the mixins (proved for classes built on them). A final step with transform but no fit_transform makes fit_transform_resample return None (C14_refuted_no_fit_transform)."
  },
  {
   "property": "C15",
   "status": "proved",
   "theorems": [
    "Gtda.Pipeline.C15_invalid_steps",
    "Gtda.Pipeline.C15_unknown_step",
    "Gtda.Pipeline.C15_routing",
    "Gtda.Pipeline.C15_refuted_trailing_underscore",
    "Gtda.Props.C15_passthrough"
   ],
   "note": "Step names ending with an underscore lose their parameters to another step (C15_refuted_trailing_underscore)."
  },
  {
   "property": "C16",
   "status": "proved",
   "theorems": [
    "Gtda.Pipeline.C16_aligned",
    "Gtda.Pipeline.C16_series_chain"
   ],
   "note": ""
  },
  {
   "property": "C17",
   "status": "proved",
   "theorems": [
    "Gtda.Props.C17_slices_partition",
    "Gtda.Props.C17_njobs_independent",
    "Gtda.Props.C17_njobs_map",
    "Gtda.Props.C17_njobs_independent_raising",
    "Gtda.Props.C17_schedule_independent"
   ],
   "note": ""
  },
  {
   "property": "C18",
   "status": "proved",
   "theorems": [
    "Gtda.Props.C18_check_diagrams",
    "Gtda.Props.C18_accepted"
   ],
   "note": ""
  },
  {
   "property": "C19",
   "status": "partial",
   "theorems": [
    "Gtda.Props.C19_equal_counts_partial",
    "Gtda.Props.C19_at_most_two_partial",
    "Gtda.Props.C19_refuted_three_diagrams"
   ],
   "note": "True for collections with equal counts per dimension and for at most two diagrams; false in general (C19_refuted_three_diagrams)."
  },
  {
   "property": "C20",
   "status": "proved",
   "theorems": [
    "Gtda.Props.C20_postprocess",
    "Gtda.Props.C20_no_uninitialised"
   ],
   "note": "Engine outputs are arbitrary inputs; NaN is replaced by 0 and -inf by the lowest float, as numpy does."
  },
  {
   "property": "C21",
   "status": "proved",
   "theorems": [
    "Gtda.Props.C21_rectangular",
    "Gtda.Props.C21_accepted"
   ],
   "note": ""
  },
  {
   "property": "C22",
   "status": "proved",
   "theorems": [
    "Gtda.Props.C22_filtering",
    "Gtda.Props.C22_width",
    "Gtda.Props.C22_fit"
   ],
   "note": "For homology_dimensions without repetitions (an example shows repeated dimensions are output twice)."
  },
  {
   "property": "C23",
   "status": "proved",
   "theorems": [
    "Gtda.Props.C23_compose",
    "Gtda.Props.C23_idempotent",
    "Gtda.Props.C23_equal_counts"
   ],
   "note": ""
  },
  {
   "property": "C24",
   "status": "proved",
   "theorems": [
    "Gtda.Props.C24_forget_dimension"
   ],
   "note": ""
  },
  {
   "property": "C25",
   "status": "proved",
   "theorems": [
    "Gtda.Props.C25_round_trip",
    "Gtda.Props.C25_round_trip_inverse_first",
    "Gtda.Props.C25_zero_scale"
   ],
   "note": ""
  },
  {
   "property": "C26",
   "status": "proved",
   "theorems": [
    "Gtda.Props.C26_scaler_bottleneck"
   ],
   "note": ""
  },
  {
   "property": "C27",
   "status": "proved",
   "theorems": [
    "Gtda.Props.C27_betti_curve",
    "Gtda.Props.C27_order_padding",
    "Gtda.Props.C27_additive",
    "Gtda.Props.C27_sum"
   ],
   "note": ""
  },
  {
   "property": "C28",
   "status": "proved",
   "theorems": [
    "Gtda.Props.C28_landscape",
    "Gtda.Props.C28_nonneg_antitone",
    "Gtda.Props.C28_lipschitz",
    "Gtda.Props.C28_layers_independent",
    "Gtda.Props.C28_order_padding"
   ],
   "note": ""
  },
  {
   "property": "C29",
   "status": "partial",
   "theorems": [
    "Gtda.Props.C29_weighted_average",
    "Gtda.Props.C29_order_padding",
    "Gtda.Props.C29_trivial_partial",
    "Gtda.Props.C29_refuted_trivial"
   ],
   "note": "True whenever a weight is positive or power is at most 8; a diagram of trivial points with larger power gives NaN (C29_refuted_trivial)."
  },
  {
   "property": "C30",
   "status": "proved",
   "theorems": [
    "Gtda.Props.C30_raster",
    "Gtda.Props.C30_heat_antisymmetric",
    "Gtda.Props.C30_trivial",
    "Gtda.Props.C30_transform",
    "Gtda.Props.C30_order_padding"
   ],
   "note": ""
  },
  {
   "property": "C31",
   "status": "partial",
   "theorems": [
    "Gtda.Props.C31_raster",
    "Gtda.Props.C31_transform",
    "Gtda.Props.C31_order_padding_partial",
    "Gtda.Props.C31_refuted"
   ],
   "note": "True when the fitted lifetime sampling starts at 0, i.e. training data has a diagonal point in each dimension (C31_order_padding_partial); false in general (C31_refuted)."
  },
  {
   "property": "C32",
   "status": "proved",
   "theorems": [
    "Gtda.Props.C32_samplings",
    "Gtda.Props.C32_samplings_persistence_image"
   ],
   "note": ""
  },
  {
   "property": "C33",
   "status": "proved",
   "theorems": [
    "Gtda.Props.C33_assembly",
    "Gtda.Props.C33_vectorised",
    "Gtda.Props.C33_matching"
   ],
   "note": ""
  },
  {
   "property": "C34",
   "status": "partial",
   "theorems": [
    "Gtda.Props.C34_vectorised",
    "Gtda.Props.C34_landscape",
    "Gtda.Props.C34_silhouette_partial",
    "Gtda.Props.C34_aggregated",
    "Gtda.Props.C34_silhouette_aggregated_partial",
    "Gtda.Props.C34_refuted_order"
   ],
   "note": "Pseudometrics for p >= 1 and order >= 1 for Betti, heat, image, landscape metrics and (where defined) silhouettes; order < 1, which is allowed, violates the triangle inequality (C34_refuted_order). Bottleneck and Wasserstein distances are covered by C98 under a contract for the engine."
  },
  {
   "property": "C35",
   "status": "proved",
   "theorems": [
    "Gtda.Props.C35_landscape_amplitudes",
    "Gtda.Props.C35_landscape_distances"
   ],
   "note": ""
  },
  {
   "property": "C36",
   "status": "partial",
   "theorems": [
    "Gtda.Props.C36_bottleneck",
    "Gtda.Props.C36_wasserstein",
    "Gtda.Props.C36_vectorised",
    "Gtda.Props.C36_padding_partial",
    "Gtda.Props.C36_trivial_partial",
    "Gtda.Props.C36_refuted_image",
    "Gtda.Props.C36_landscape",
    "Gtda.Props.C36_silhouette_partial",
    "Gtda.Props.C36_aggregated"
   ],
   "note": "All claims for bottleneck, Wasserstein, Betti, heat, landscape; for persistence images adding diagonal points can change the amplitude (C36_refuted_image); silhouettes where defined."
  },
  {
   "property": "C37",
   "status": "proved",
   "theorems": [
    "Gtda.Props.C37_persistence_entropy",
    "Gtda.Props.C37_uniform"
   ],
   "note": ""
  },
  {
   "property": "C38",
   "status": "proved",
   "theorems": [
    "Gtda.Props.C38_number_of_points",
    "Gtda.Props.C38_after_filtering"
   ],
   "note": ""
  },
  {
   "property": "C39",
   "status": "partial",
   "theorems": [
    "Gtda.Props.C39_coefficients_partial",
    "Gtda.Props.C39_invariance",
    "Gtda.Props.C39_refuted_trivial",
    "Gtda.Props.C39_fit"
   ],
   "note": "True whenever every diagram has an off-diagonal point in each dimension; with only diagonal points transform raises TypeError because np.poly([]) is a number (C39_refuted_trivial)."
  },
  {
   "property": "C40",
   "status": "proved",
   "theorems": [
    "Gtda.Props.C40_uniform_cover",
    "Gtda.Props.C40_single_value_raises",
    "Gtda.Props.C40_transform_masks"
   ],
   "note": ""
  },
  {
   "property": "C41",
   "status": "proved",
   "theorems": [
    "Gtda.Props.C41_balanced_cover",
    "Gtda.Props.C41_single_value_raises"
   ],
   "note": ""
  },
  {
   "property": "C42",
   "status": "partial",
   "theorems": [
    "Gtda.Props.C42_one_dimensional_partial",
    "Gtda.Props.C42_refuted_stale_limits",
    "Gtda.Props.C42_cubical"
   ],
   "note": "True for uniform covers, for fit-only histories and (in full) for CubicalCover; false for balanced OneDimensionalCover after fit then fit_transform (C42_refuted_stale_limits)."
  },
  {
   "property": "C43",
   "status": "proved",
   "theorems": [
    "Gtda.Props.C43_clean_masks"
   ],
   "note": ""
  },
  {
   "property": "C44",
   "status": "proved",
   "theorems": [
    "Gtda.Props.C44_boxes",
    "Gtda.Props.C44_fit_transform"
   ],
   "note": ""
  },
  {
   "property": "C45",
   "status": "proved",
   "theorems": [
    "Gtda.Props.C45_labels",
    "Gtda.Props.C45_two_metric_parameters"
   ],
   "note": ""
  },
  {
   "property": "C46",
   "status": "proved",
   "theorems": [
    "Gtda.Props.C46_nerve",
    "Gtda.Props.C46_no_cluster_raises"
   ],
   "note": ""
  },
  {
   "property": "C47",
   "status": "proved",
   "theorems": [
    "Gtda.Props.C47_contraction"
   ],
   "note": ""
  },
  {
   "property": "C48",
   "status": "partial",
   "theorems": [
    "Gtda.Props.C48_refuted_attributes",
    "Gtda.Props.C48_refuted_multiple_edges",
    "Gtda.Props.C48_refuted_loops",
    "Gtda.Props.C48_attributes_partial"
   ],
   "note": "Attributes of an uncontracted survivor and of edges are proved kept (C48_attributes_partial); simplicity and elements of the surviving node are refuted by witnesses."
  },
  {
   "property": "C49",
   "status": "partial",
   "theorems": [
    "Gtda.Props.C49_first_gap_partial",
    "Gtda.Props.C49_single_sample",
    "Gtda.Props.C49_refuted_at_least_one",
    "Gtda.Props.C49_coinciding_samples",
    "Gtda.Props.C49_refuted_max_fraction_none"
   ],
   "note": "The number of clusters before the first gap is characterised; the claim of at least one cluster, of one cluster for coinciding samples and of max_fraction=None are refuted."
  },
  {
   "property": "C50",
   "status": "proved",
   "theorems": [
    "Gtda.Props.C50_histogram_gap",
    "Gtda.Props.C50_two_samples",
    "Gtda.Props.C50_refuted_documented_threshold"
   ],
   "note": ""
  },
  {
   "property": "C51",
   "status": "proved",
   "theorems": [
    "Gtda.C51_set",
    "Gtda.C51_nested",
    "Gtda.C51_get",
    "Gtda.C51_distinct",
    "Gtda.C51_round_trip",
    "Gtda.C51_shallow",
    "Gtda.C51_refuted_n_jobs",
    "Gtda.C51_unknown",
    "Gtda.C51_refuted_example",
    "Gtda.C51_steps",
    "Gtda.C51_replace"
   ],
   "note": "Two parts of the documented behaviour are refuted (C51_refuted_n_jobs, C51_refuted_example); the other theorems hold for all pipelines and names."
  },
  {
   "property": "C52",
   "status": "proved",
   "theorems": [
    "Gtda.Props.C52_eccentricity",
    "Gtda.Props.C52_eccentricity_perm",
    "Gtda.Props.C52_entropy",
    "Gtda.Props.C52_entropy_invariant",
    "Gtda.Props.C52_entropy_zero_iff"
   ],
   "note": ""
  },
  {
   "property": "C53",
   "status": "proved",
   "theorems": [
    "Gtda.C53_hex_round_trip",
    "Gtda.C53_hex_read",
    "Gtda.C53_colors",
    "Gtda.C53_between",
    "Gtda.C53_no_range",
    "Gtda.C53_scale",
    "Gtda.C53_list",
    "Gtda.C53_pairs"
   ],
   "note": "literal_eval of rgb(...) colours is a parameter; floats are exact numbers."
  },
  {
   "property": "C54",
   "status": "partial",
   "theorems": [
    "Gtda.Props.C54_mapper_partial",
    "Gtda.Props.C54_refuted_contracted"
   ],
   "note": "Proved for contract_nodes=False; with contract_nodes=True a sample can be in no node (refuted)."
  },
  {
   "property": "C55",
   "status": "proved",
   "theorems": [
    "Gtda.Images.C55_fit_max",
    "Gtda.Images.C55_threshold",
    "Gtda.Images.C55_monotone",
    "Gtda.Images.C55_scale_invariant"
   ],
   "note": ""
  },
  {
   "property": "C56",
   "status": "partial",
   "theorems": [
    "Gtda.Images.C56_boolean",
    "Gtda.Images.C56_involution_partial",
    "Gtda.Images.C56_order_reversing",
    "Gtda.Images.C56_nonneg",
    "Gtda.Images.C56_refuted_true_on_numbers",
    "Gtda.Images.C56_refuted_false_on_booleans"
   ],
   "note": "Involution, order reversal, negation and non-negativity proved; false as stated for max_value=True on greyscale images (collapsed to a test for zero) and max_value=False on boolean images (TypeError)."
  },
  {
   "property": "C57",
   "status": "partial",
   "theorems": [
    "Gtda.Images.C57_fit",
    "Gtda.Images.C57_pad",
    "Gtda.Images.C57_pad_partial",
    "Gtda.Images.C57_refuted_integer_images",
    "Gtda.Images.C57_negative"
   ],
   "note": "Proved for padding values representable in the dtype of the images; false for a fractional value on integer images (the border is truncated)."
  },
  {
   "property": "C58",
   "status": "proved",
   "theorems": [
    "Gtda.Images.C58_points",
    "Gtda.Images.C58_one_point_per_pixel"
   ],
   "note": ""
  },
  {
   "property": "C59",
   "status": "proved",
   "theorems": [
    "Gtda.Images.C59_height",
    "Gtda.Images.C59_one_dimensional"
   ],
   "note": ""
  },
  {
   "property": "C60",
   "status": "proved",
   "theorems": [
    "Gtda.Images.C60_radial"
   ],
   "note": ""
  },
  {
   "property": "C61",
   "status": "proved",
   "theorems": [
    "Gtda.Images.C61_dilation",
    "Gtda.Images.C61_max_value",
    "Gtda.Images.C61_distance_facts"
   ],
   "note": ""
  },
  {
   "property": "C62",
   "status": "proved",
   "theorems": [
    "Gtda.Images.C62_erosion",
    "Gtda.Images.C62_erosion_is_dilation"
   ],
   "note": ""
  },
  {
   "property": "C63",
   "status": "proved",
   "theorems": [
    "Gtda.Images.C63_signed_distance"
   ],
   "note": ""
  },
  {
   "property": "C64",
   "status": "proved",
   "theorems": [
    "Gtda.Images.C64_density"
   ],
   "note": ""
  },
  {
   "property": "C65",
   "status": "proved",
   "theorems": [
    "Gtda.Images.C65_density_batch",
    "Gtda.Images.C65_dilation_batch",
    "Gtda.Images.C65_erosion_batch",
    "Gtda.Images.C65_signed_batch",
    "Gtda.Images.C65_height_radial_batch"
   ],
   "note": ""
  },
  {
   "property": "C66",
   "status": "proved",
   "theorems": [
    "Gtda.Props.C66_transitions",
    "Gtda.Props.C66_refuted_undirected_zero_one"
   ],
   "note": "Dense form of the sparse adjacency matrix; C66_transitions says what entries count, C66_refuted_undirected_zero_one refutes the docstring's undirected zero-one matrix."
  },
  {
   "property": "C67",
   "status": "partial",
   "theorems": [
    "Gtda.Props.C67_refuted_func_params",
    "Gtda.Props.C67_refuted_witness"
   ],
   "note": "False as stated: C67_refuted_func_params shows func_params never matters, C67_refuted_witness gives a concrete case."
  },
  {
   "property": "C68",
   "status": "proved",
   "theorems": [
    "Gtda.Props.C68_consistent_rescaling",
    "Gtda.Props.C68_scale_invariant",
    "Gtda.Props.C68_transform",
    "Gtda.Props.C68_points",
    "Gtda.Props.C68_refuted_kth_largest"
   ],
   "note": "For matrices of real numbers; the docstring's k-th largest is refuted by C68_refuted_kth_largest."
  },
  {
   "property": "C69",
   "status": "partial",
   "theorems": [
    "Gtda.Props.C69_consecutive_partial",
    "Gtda.Props.C69_points",
    "Gtda.Props.C69_refuted_symmetric",
    "Gtda.Props.C69_refuted_integer_matrices"
   ],
   "note": "Proved for point clouds with every metric (C69_points) and for metric='precomputed' where the factor and matrix are of compatible types; the symmetric reading and integer matrices are refuted."
  },
  {
   "property": "C70",
   "status": "proved",
   "theorems": [
    "Gtda.Props.C70_shortest_walks",
    "Gtda.Props.C70_refuted_default_directed"
   ],
   "note": "Relative to a shortest path engine correct on its documented domain (a correct engine exists: correct_engine_exists); default of directed refuted."
  },
  {
   "property": "C71",
   "status": "partial",
   "theorems": [
    "Gtda.Props.C71_weak_alpha_edges_partial",
    "Gtda.Props.C71_refuted_isolated_point",
    "Gtda.Props.C71_refuted_last_isolated"
   ],
   "note": "Proved when every point has a Delaunay neighbour; refuted in general."
  },
  {
   "property": "C72",
   "status": "proved",
   "theorems": [
    "Gtda.Props.C72_coned_matrix"
   ],
   "note": "For any order of the annulus points."
  },
  {
   "property": "C73",
   "status": "partial",
   "theorems": [
    "Gtda.Props.C73_refit_partial",
    "Gtda.Props.C73_refuted_refit",
    "Gtda.Props.C73_radius_refit"
   ],
   "note": "Proved for KNeighbors when the data sets are large enough and for Radius always; refuted in general."
  },
  {
   "property": "C74",
   "status": "partial",
   "theorems": [
    "Gtda.Props.C74_collection_partial",
    "Gtda.Props.C74_refuted_not_an_estimator"
   ],
   "note": "Proved for cloneable transformers and any execution order of the jobs; refuted for objects without get_params."
  },
  {
   "property": "C75",
   "status": "partial",
   "theorems": [
    "Gtda.Props.C75_validate_params_partial",
    "Gtda.Props.C75_refuted_nested_sequences",
    "Gtda.Props.C75_refuted_n_neighbors_type",
    "Gtda.Props.C75_homology_dimensions",
    "Gtda.Props.C75_n_neighbors",
    "Gtda.Props.C75_bool_is_int"
   ],
   "note": "Proved for declarations without nested sequences; the code never checks elements of nested sequences (C75_refuted_nested_sequences) nor the declarations keyed by the type object (C75_refuted_n_neighbors_type)."
  },
  {
   "property": "C76",
   "status": "partial",
   "theorems": [
    "Gtda.Props.C76_members",
    "Gtda.Props.C76_is_empty",
    "Gtda.Props.C76_intersects_partial",
    "Gtda.Props.C76_refuted_intersects_empty",
    "Gtda.Props.C76_translate",
    "Gtda.Props.C76_scale",
    "Gtda.Props.C76_refuted_negative_factor",
    "Gtda.Props.C76_refuted_factor_zero",
    "Gtda.Props.C76_refuted_number_on_the_left"
   ],
   "note": "intersects is characterised for non-empty intervals only: with an empty interval the claim is false (C76_refuted_intersects_empty); the documented arithmetic with negative or zero factors or a number on the left is refuted."
  },
  {
   "property": "C77",
   "status": "partial",
   "theorems": [
    "Gtda.Props.C77_refuted_pickling",
    "Gtda.Props.C77_keyword_would_do"
   ],
   "note": "False as stated: unpickling raises TypeError for every interval (C77_refuted_pickling). C77_keyword_would_do proves the round trip for the keyword call the class needs."
  },
  {
   "property": "C78",
   "status": "proved",
   "theorems": [
    "Gtda.Props.C78_derivative",
    "Gtda.Props.C78_rejected",
    "Gtda.Props.C78_compose",
    "Gtda.Props.C78_linear"
   ],
   "note": "All curves and orders."
  },
  {
   "property": "C79",
   "status": "partial",
   "theorems": [
    "Gtda.Props.C79_list_partial",
    "Gtda.Props.C79_callable",
    "Gtda.Props.C79_string",
    "Gtda.Props.C79_wrong_length",
    "Gtda.Props.C79_refused",
    "Gtda.Props.C79_refuted_identity_in_list",
    "Gtda.Props.C79_refuted_none_params",
    "Gtda.Props.C79_refuted_weights_none",
    "Gtda.Props.C79_refuted_rows_mixed",
    "Gtda.Props.C79_refuted_entry_types"
   ],
   "note": "Row layout proved for functions whose output length does not depend on the curve; the rest of the statement is refuted by witnesses."
  },
  {
   "property": "C80",
   "status": "proved",
   "theorems": [
    "Gtda.Props.C80_flagser"
   ],
   "note": "All engine outputs (however short or long) and all requested dimensions, end to end through the common postprocessing."
  },
  {
   "property": "C81",
   "status": "proved",
   "theorems": [
    "Gtda.Props.C81_normalised_entropy"
   ],
   "note": ""
  },
  {
   "property": "C82",
   "status": "proved",
   "theorems": [
    "Gtda.Pipeline.C82_no_lookahead",
    "Gtda.Pipeline.C82_no_lookahead_after_fit"
   ],
   "note": ""
  },
  {
   "property": "C83",
   "status": "partial",
   "theorems": [
    "Gtda.Pipeline.C83_refuted_resample",
    "Gtda.Pipeline.C83_refuted_raises",
    "Gtda.Pipeline.C83_resample_partial"
   ],
   "note": "False as documented: the result does not depend on the argument (C83_refuted_*). True when targets are passed as second argument (C83_resample_partial)."
  },
  {
   "property": "C84",
   "status": "partial",
   "theorems": [
    "Gtda.Pipeline.C84_refuted_inverse",
    "Gtda.Pipeline.C84_inverse_partial"
   ],
   "note": "False for steps whose inverse_transform takes one argument, as Scaler's does (C84_refuted_inverse); true for steps that accept a second argument (C84_inverse_partial)."
  },
  {
   "property": "C85",
   "status": "partial",
   "theorems": [
    "Gtda.Props.C85_projection",
    "Gtda.Props.C85_callable_on_rows_partial",
    "Gtda.Props.C85_refuted_axis_without_keepdims"
   ],
   "note": "Callables with a parameter axis but no keepdims always raise (refuted); proved for all others and for Projection."
  },
  {
   "property": "C86",
   "status": "proved",
   "theorems": [
    "Gtda.Props.C86_extended_pseudometric"
   ],
   "note": "For engines correct on their domain and distances that exist."
  },
  {
   "property": "C87",
   "status": "partial",
   "theorems": [
    "Gtda.Props.C87_refuted_set_n_neighbors",
    "Gtda.Props.C87_refuted_witness",
    "Gtda.Props.C87_refuted_set_radii",
    "Gtda.Props.C87_refuted_second_radius_set_to_one"
   ],
   "note": "False as stated: refuted for all states and arguments, and by concrete witnesses."
  },
  {
   "property": "C88",
   "status": "partial",
   "theorems": [
    "Gtda.Props.C88_ripser",
    "Gtda.Props.C88_gudhi",
    "Gtda.Props.C88_order_of_dimensions",
    "Gtda.Props.C88_order_of_samples",
    "Gtda.Props.C88_batch",
    "Gtda.Props.C88_refuted_repeated_dimension",
    "Gtda.Props.C88_no_dimensions"
   ],
   "note": "Proved for all engines, batches, orders and schedules; the irrelevance of repeated dimensions is refuted."
  },
  {
   "property": "C89",
   "status": "proved",
   "theorems": [
    "Gtda.Props.C89_effective",
    "Gtda.Props.C89_rejected",
    "Gtda.Props.C89_other_string",
    "Gtda.Props.C89_unknown_name"
   ],
   "note": "All dictionaries with distinct keys; the exception for unknown names is KeyError."
  },
  {
   "property": "C90",
   "status": "partial",
   "theorems": [
    "Gtda.Props.C90_cells",
    "Gtda.Props.C90_cubical",
    "Gtda.Props.C90_refuted_periodic_attribute"
   ],
   "note": "Everything except the attribute periodic_dimensions_, whose documented shape is refuted."
  },
  {
   "property": "C91",
   "status": "partial",
   "theorems": [
    "Gtda.Props.C91_reduced_partial",
    "Gtda.Props.C91_refuted_place_in_list"
   ],
   "note": "Proved under the engine contract that the earliest born essential class is listed where the code looks; refuted in general."
  },
  {
   "property": "C92",
   "status": "partial",
   "theorems": [
    "Gtda.C92_hover_labels",
    "Gtda.C92_refuted_constant_column"
   ],
   "note": "Proved when later columns vary or the first is constant; refuted for constant later columns."
  },
  {
   "property": "C93",
   "status": "proved",
   "theorems": [
    "Gtda.C93_statistics",
    "Gtda.C93_sizeref",
    "Gtda.C93_hover_text",
    "Gtda.C93_texts",
    "Gtda.C93_menu",
    "Gtda.C93_too_many_names"
   ],
   "note": "Printing of numbers is a parameter; printed statistics contain no blank."
  },
  {
   "property": "C94",
   "status": "proved",
   "theorems": [
    "Gtda.C94_significant_figures",
    "Gtda.C94_special",
    "Gtda.C94_exact",
    "Gtda.C94_ties"
   ],
   "note": "Exact numbers; floating point rounding is not modelled."
  },
  {
   "property": "C95",
   "status": "partial",
   "theorems": [
    "Gtda.C95_make",
    "Gtda.C95_rebuild",
    "Gtda.C95_refuted_verbose",
    "Gtda.C95_refuted_filter"
   ],
   "note": "Proved with the restrictions in the statement; without them refuted (C95_refuted_verbose, C95_refuted_filter)."
  },
  {
   "property": "C96",
   "status": "partial",
   "theorems": [
    "Gtda.C96_list",
    "Gtda.C96_array",
    "Gtda.C96_slices",
    "Gtda.C96_refuted_no_points",
    "Gtda.C96_other_errors"
   ],
   "note": "C96_list and C96_array decide acceptance, result and warning; C96_slices shows that an array and the list of its entries are treated alike for entries with rows and columns, C96_refuted_no_points that they are not otherwise; C96_other_errors gives the IndexError and TypeError cases. Conversion of data types and mixtures of sparse and dense matrices of one shape are not covered."
  },
  {
   "property": "C97",
   "status": "proved",
   "theorems": [
    "Gtda.C97_list",
    "Gtda.C97_array",
    "Gtda.C97_no_axes"
   ],
   "note": "Lists and arrays decided exactly; C97_no_axes records the TypeError."
  },
  {
   "property": "C98",
   "status": "proved",
   "theorems": [
    "Gtda.Props.C98_exact",
    "Gtda.Props.C98_approximate",
    "Gtda.Props.C98_stable"
   ],
   "note": "The engines (Hera) are parameters with the contract WithinError; everything else is proved, including that the minimum is attained."
  },
  {
   "property": "C99",
   "status": "proved",
   "theorems": [
    "Gtda.Props.C99_bottleneck",
    "Gtda.Props.C99_wasserstein",
    "Gtda.Props.C99_lipschitz"
   ],
   "note": "For all diagrams (bottleneck: with at least one point per dimension, else numpy raises)."
  },
  {
   "property": "C100",
   "status": "proved",
   "theorems": [
    "Gtda.Props.C100_landscape",
    "Gtda.Props.C100_distances"
   ],
   "note": "Real-valued model; second part for an exact engine."
  },
  {
   "property": "C101",
   "status": "partial",
   "theorems": [
    "Gtda.Plotting.C101_markers",
    "Gtda.Plotting.C101_default",
    "Gtda.Plotting.C101_axes",
    "Gtda.Plotting.C101_names",
    "Gtda.Plotting.C101_refuted_one_birth",
    "Gtda.Plotting.C101_forget"
   ],
   "note": "axes claim false when all classes never die and are born together (C101_refuted_one_birth); everything else proved"
  },
  {
   "property": "C102",
   "status": "partial",
   "theorems": [
    "Gtda.Plotting.C102_transform_plot",
    "Gtda.Plotting.C102_refuted_minus_one",
    "Gtda.Plotting.C102_diagrams"
   ],
   "note": "false for sample=-1 (C102_refuted_minus_one)"
  },
  {
   "property": "C103",
   "status": "proved",
   "theorems": [
    "Gtda.Plotting.C103_curves",
    "Gtda.Plotting.C103_unknown",
    "Gtda.Plotting.C103_landscapes",
    "Gtda.Plotting.C103_betti"
   ],
   "note": ""
  },
  {
   "property": "C104",
   "status": "partial",
   "theorems": [
    "Gtda.Plotting.C104_curves_partial",
    "Gtda.Plotting.C104_refuted_dimensions",
    "Gtda.Plotting.C104_surfaces_partial",
    "Gtda.Plotting.C104_refuted_default_samplings"
   ],
   "note": "false for dimensions other than 0..n-1 and for the default samplings"
  },
  {
   "property": "C105",
   "status": "partial",
   "theorems": [
    "Gtda.Plotting.C105_all_channels_partial",
    "Gtda.Plotting.C105_refuted_channels",
    "Gtda.Plotting.C105_refuted_abscissae"
   ],
   "note": "false for chosen channels and for abscissae"
  },
  {
   "property": "C106",
   "status": "proved",
   "theorems": [
    "Gtda.Plotting.C106_heat",
    "Gtda.Plotting.C106_image"
   ],
   "note": "smoothing filter is a parameter"
  },
  {
   "property": "C107",
   "status": "partial",
   "theorems": [
    "Gtda.Plotting.C107_cloud_partial",
    "Gtda.Plotting.C107_rejected",
    "Gtda.Plotting.C107_refuted_one_coordinate"
   ],
   "note": "false for clouds with one coordinate"
  },
  {
   "property": "C108",
   "status": "partial",
   "theorems": [
    "Gtda.Props.C108_widgets",
    "Gtda.Props.C108_params",
    "Gtda.Props.C108_displayed",
    "Gtda.Props.C108_clone",
    "Gtda.Props.C108_valid",
    "Gtda.Props.C108_invalid",
    "Gtda.Props.C108_refuted_stale",
    "Gtda.Props.C108_refuted_constant",
    "Gtda.Props.C108_refuted_white",
    "Gtda.Props.C108_refuted_custom"
   ],
   "note": "C108_params, C108_displayed, C108_widgets and C108_clone hold for every history; C108_valid assumes that plotly_params does not replace data of the traces and that the first 3D plot has coloured hover labels; refuted where drawing fails after fitting (C108_refuted_stale), for 3D plots with nodes of one colour (C108_refuted_constant, C108_refuted_white) and for trace data set by plotly_params (C108_refuted_custom)."
  },
  {
   "property": "C109",
   "status": "partial",
   "theorems": [
    "Gtda.Props.C109_cloud",
    "Gtda.Props.C109_precomputed_partial",
    "Gtda.Props.C109_rejected",
    "Gtda.Props.C109_list",
    "Gtda.Props.C109_array",
    "Gtda.Props.C109_every_array",
    "Gtda.Props.C109_unfitted",
    "Gtda.Props.C109_refuted_diagonal",
    "Gtda.Props.C109_not_symmetric"
   ],
   "note": "Proved for all metrics (C109_cloud) and for precomputed matrices whose diagonal entries are least in their rows (C109_precomputed_partial); for other precomputed matrices refuted (C109_refuted_diagonal). Graphs of sparse input are an opaque engine."
  },
  {
   "property": "C110",
   "status": "partial",
   "theorems": [
    "Gtda.Props.C110_information",
    "Gtda.Props.C110_information_bounds",
    "Gtda.Props.C110_short",
    "Gtda.Props.C110_counts",
    "Gtda.Props.C110_counts_partial",
    "Gtda.Props.C110_refuted_ramp",
    "Gtda.Props.C110_affine",
    "Gtda.Props.C110_mutual_information",
    "Gtda.Props.C110_search",
    "Gtda.Props.C110_search_affine"
   ],
   "note": "The choice, its failure and its invariance are proved for every correct search of neighbours. The last clause is false of the code and refuted: the code compares the value at time i + (2 d - 1) tau with that of the neighbour of point i + d tau, so that for a ramp, in which no pair of points is a false pair, every point is counted (C110_refuted_ramp). What is counted instead is stated in C110_counts for all strides. C110_information states what the mutual information is."
  },
  {
   "property": "C111",
   "status": "partial",
   "theorems": [
    "Gtda.Props.C111_features",
    "Gtda.Props.C111_plot",
    "Gtda.Props.C111_rejected",
    "Gtda.Props.C111_array_partial",
    "Gtda.Props.C111_rejected_empty",
    "Gtda.Props.C111_unknown_column",
    "Gtda.Props.C111_matrix_partial",
    "Gtda.Props.C111_refuted_matrix_labels",
    "Gtda.Props.C111_refuted_ignored",
    "Gtda.Props.C111_refuted_frame"
   ],
   "note": "Proved for callable statistics (C111_plot) and for arrays with one axis whenever color_features can be applied (C111_array_partial). The clause that color_features is ignored for arrays is false of the code (C111_refuted_ignored; the examples also show that labels of a dataframe are put on columns of the array), and transformers whose output is a dataframe fail with AttributeError (C111_refuted_frame)."
  },
  {
   "property": "C112",
   "status": "proved",
   "theorems": [
    "Gtda.Props.C112_lines"
   ],
   "note": "Layout engines and plotly are parameters or left out; what is proved is about the coordinate lists handed to plotly, read as plotly documents them (lines between consecutive points, interrupted at None)."
  },
  {
   "property": "C113",
   "status": "partial",
   "theorems": [
    "Gtda.Props.C113_betti",
    "Gtda.Props.C113_landscape",
    "Gtda.Props.C113_heat",
    "Gtda.Props.C113_image",
    "Gtda.Props.C113_silhouette",
    "Gtda.Props.C113_history",
    "Gtda.Props.C113_set_after_fit",
    "Gtda.Props.C113_ignored_after_fit",
    "Gtda.Props.C113_bins_after_fit",
    "Gtda.Props.C113_failed_fit_partial",
    "Gtda.Props.C113_refuted_one_bin",
    "Gtda.Props.C113_refuted_failed_fit",
    "Gtda.Props.C113_refuted_not_fitted",
    "Gtda.Props.C113_refuted_jobs"
   ],
   "note": "Proved for all collections, histories and numbers of jobs. A failed fit can replace the homology dimensions of a fitted object (refuted with a witness, partial theorem says exactly what changes), n_bins=1 gives NaN heat kernels (refuted), unequal numbers of points raise or not depending on n_jobs (refuted)."
  },
  {
   "property": "C114",
   "status": "partial",
   "theorems": [
    "Gtda.Props.C114_distance",
    "Gtda.Props.C114_pseudometric",
    "Gtda.Props.C114_amplitude",
    "Gtda.Props.C114_validation",
    "Gtda.Props.C114_matching_distance",
    "Gtda.Props.C114_bottleneck_amplitude",
    "Gtda.Props.C114_wasserstein_amplitude",
    "Gtda.Props.C114_history",
    "Gtda.Props.C114_ignored_after_fit",
    "Gtda.Props.C114_set_after_fit",
    "Gtda.Props.C114_failed_fit_partial",
    "Gtda.Props.C114_refuted_one_bin",
    "Gtda.Props.C114_refuted_rejected_used",
    "Gtda.Props.C114_refuted_unusable",
    "Gtda.Props.C114_refuted_failed_fit",
    "Gtda.Props.C114_refuted_not_fitted"
   ],
   "note": "Exact description of fit and transform of PairwiseDistance and Amplitude for all metrics, with validation and histories, proved. False parts refuted with witnesses: a failed fit may change what transform computes (rejected parameters used, other dimensions, TypeError), AttributeError instead of NotFittedError, n_bins=1 gives NaN amplitudes. Vector metrics are stated for n_bins of at least 2."
  },
  {
   "property": "C115",
   "status": "partial",
   "theorems": [
    "Gtda.Props.C115_scale",
    "Gtda.Props.C115_refuted_no_function",
    "Gtda.Props.C115_transform",
    "Gtda.Props.C115_zero_scale",
    "Gtda.Props.C115_units",
    "Gtda.Props.C115_idempotent",
    "Gtda.Props.C115_not_fitted",
    "Gtda.Props.C115_history",
    "Gtda.Props.C115_failed_fits",
    "Gtda.Props.C115_refuted_not_fitted",
    "Gtda.Props.C115_refuted_negative_scale",
    "Gtda.Props.C115_refuted_zero_scale"
   ],
   "note": "Scale, results, round trip for positive scales, units, idempotence, histories and failures proved. False parts refuted with witnesses: function=None accepted but TypeError in fit, negative and zero scales, AttributeError instead of NotFittedError."
  },
  {
   "property": "C116",
   "status": "partial",
   "theorems": [
    "Gtda.Props.C116_fit",
    "Gtda.Props.C116_transform",
    "Gtda.Props.C116_rejected",
    "Gtda.Props.C116_history",
    "Gtda.Props.C116_training",
    "Gtda.Props.C116_ignored_after_fit",
    "Gtda.Props.C116_set_after_fit_partial",
    "Gtda.Props.C116_not_fitted",
    "Gtda.Props.C116_failed_fit_partial",
    "Gtda.Props.C116_refuted_threshold",
    "Gtda.Props.C116_refuted_training_images",
    "Gtda.Props.C116_refuted_failed_fit",
    "Gtda.Props.C116_refuted_not_fitted"
   ],
   "note": "Results, training data, order of execution and histories proved for all seven classes; parameter changes after fit and failed fits hold only under conditions (C116_set_after_fit_partial, C116_failed_fit_partial) and are refuted in general with witnesses."
  },
  {
   "property": "C117",
   "status": "proved",
   "theorems": [
    "Gtda.Props.C117_without_memory",
    "Gtda.Props.C117_with_memory",
    "Gtda.Props.C117_same",
    "Gtda.Props.C117_objects_kept",
    "Gtda.Props.C117_no_refit",
    "Gtda.Props.C117_sharing_matters"
   ],
   "note": "joblib.Memory is modelled as a map that compares arguments exactly and never expires entries (hash collisions and deleted cache files are outside the model). That transformers forget earlier fits (fit of a clone equals a refit) is an assumption on the classes, shown to hold for a concrete one; without memory the objects must not be shared between steps, for which a witness is given."
  },
  {
   "property": "C118",
   "status": "partial",
   "theorems": [
    "Gtda.Props.C118_fit",
    "Gtda.Props.C118_available",
    "Gtda.Props.C118_transform",
    "Gtda.Props.C118_inverse",
    "Gtda.Props.C118_score",
    "Gtda.Props.C118_refuted_resample",
    "Gtda.Props.C118_refuted_incomplete",
    "Gtda.Props.C118_fitted",
    "Gtda.Props.C118_history"
   ],
   "note": "False of resample (C118_refuted_resample): a nested pipeline ignores the targets it is given; and of inner pipelines that end with a step without fit_transform (C118_refuted_incomplete). The rest is proved, for pipelines as constructed, after fitting (C118_fitted) and after any history of fits, failed ones included (C118_history); names of inner pipelines must not end with an underscore (see C15)."
  },
  {
   "property": "C119",
   "status": "partial",
   "theorems": [
    "Gtda.Props.C119_transform",
    "Gtda.Props.C119_transform_resample",
    "Gtda.Props.C119_inverse",
    "Gtda.Props.C119_score",
    "Gtda.Props.C119_refuted_resample",
    "Gtda.Props.C119_fit_predict",
    "Gtda.Props.C119_no_fit_predict",
    "Gtda.Props.C119_names",
    "Gtda.Props.C119_keywords",
    "Gtda.Props.C119_resample_partial"
   ],
   "note": "False of resample, which needs the method of all steps although it is there if the final step has it (C119_refuted_resample; what is true of it: C119_resample_partial); the rest is proved."
  },
  {
   "property": "C120",
   "status": "partial",
   "theorems": [
    "Gtda.Props.C120_latest_fit",
    "Gtda.Props.C120_simple",
    "Gtda.Props.C120_histogram",
    "Gtda.Props.C120_failed_fit",
    "Gtda.Props.C120_invalid",
    "Gtda.Props.C120_linkage",
    "Gtda.Props.C120_refuted_stale_tree",
    "Gtda.Props.C120_refuted_linkage_one_sample",
    "Gtda.Props.C120_parallel",
    "Gtda.Props.C120_parallel_failed",
    "Gtda.Props.C120_parallel_kept",
    "Gtda.Props.C120_parallel_masks"
   ],
   "note": "proved in full except that children_, n_leaves_ and distances_ stay from an earlier fit when the new data is a single sample, and that linkage is not checked then (C120_refuted_\u2026)"
  },
  {
   "property": "C121",
   "status": "partial",
   "theorems": [
    "Gtda.Props.C121_fit_iff",
    "Gtda.Props.C121_cubical_fit_iff",
    "Gtda.Props.C121_names_feature",
    "Gtda.Props.C121_history",
    "Gtda.Props.C121_intervals",
    "Gtda.Props.C121_cubical_history",
    "Gtda.Props.C121_one_feature",
    "Gtda.Props.C121_refuted_attribute_error"
   ],
   "note": "proved in full except the last sentence, which is false of CubicalCover after a change of kind (C121_refuted_attribute_error)"
  },
  {
   "property": "C122",
   "status": "partial",
   "theorems": [
    "Gtda.Props.C122_filters",
    "Gtda.Props.C122_projection",
    "Gtda.Props.C122_projection_other_columns",
    "Gtda.Props.C122_refuted_other_columns",
    "Gtda.Props.C122_multivariate",
    "Gtda.Props.C122_series",
    "Gtda.Props.C122_takens",
    "Gtda.Props.C122_diagrams_graphs",
    "Gtda.Props.C122_knn",
    "Gtda.Props.C122_knn_partial",
    "Gtda.Props.C122_refuted_knn_stateless",
    "Gtda.Props.C122_transition",
    "Gtda.Props.C122_refuted_transition_parameters",
    "Gtda.Props.C122_images",
    "Gtda.Props.C122_refuted_failed_fit"
   ],
   "note": "Proved for the eleven classes that only set a flag, for ImageToPointCloud as far as accepted fits go, and for KNeighborsGraph as long as parameter changes keep the kind of metric. False otherwise, refuted with witnesses: a refused fit of KNeighborsGraph changes what transform accepts, and a change of metric is followed only in part; TransitionGraph ignores changes of func until the next fit; an ImageToPointCloud whose fit raised counts as fitted; Projection.fit refuses data frames for columns that are not selected."
  },
  {
   "property": "C123",
   "status": "partial",
   "theorems": [
    "Gtda.Props.C123_union_fit_transform",
    "Gtda.Props.C123_union_transform",
    "Gtda.Props.C123_union_consistent",
    "Gtda.Props.C123_union_drop",
    "Gtda.Props.C123_union_all_dropped",
    "Gtda.Props.C123_union_example",
    "Gtda.Props.C123_refuted_union_list",
    "Gtda.Props.C123_method",
    "Gtda.Props.C123_method_fit_transform_partial",
    "Gtda.Props.C123_refuted_own_fit_transform",
    "Gtda.Props.C123_name",
    "Gtda.Props.C123_identity",
    "Gtda.Props.C123_rows",
    "Gtda.Props.C123_collection_partial",
    "Gtda.Props.C123_collection_refused",
    "Gtda.Props.C123_collection_example",
    "Gtda.Props.C123_nerve_fit",
    "Gtda.Props.C123_clustering_transform"
   ],
   "note": "Unions, identity, rows, collections and nerves proved for every schedule and history. False: fit_transform of an extended class is the wrapped class's own fit_transform if it has one, not fit followed by the method (C123_refuted_own_fit_transform, e.g. KMeans with predict); a union whose steps are all dropped returns an array and not a list (C123_refuted_union_list). Collections: for cloneable transformers, the others are refuted in C74."
  },
  {
   "property": "C124",
   "status": "partial",
   "theorems": [
    "Gtda.Props.C124_points",
    "Gtda.Props.C124_points_none",
    "Gtda.Props.C124_entropy",
    "Gtda.Props.C124_filtering",
    "Gtda.Props.C124_filtering_example",
    "Gtda.Props.C124_polynomial_partial",
    "Gtda.Props.C124_refuted_failed_fit",
    "Gtda.Props.C124_refuted_shared_list"
   ],
   "note": "Proved for PersistenceEntropy, NumberOfPoints and Filtering. ComplexPolynomial: proved unless a later fit fails half way or the list passed as n_coefficients is changed; both are refuted (C124_refuted_failed_fit: homology_dimensions_ is replaced before the ValueError, and transform then raises IndexError; C124_refuted_shared_list: n_coefficients_ is the caller's list)."
  },
  {
   "property": "C125",
   "status": "partial",
   "theorems": [
    "Gtda.Props.C125_radius",
    "Gtda.Props.C125_neighbours_partial",
    "Gtda.Props.C125_rows",
    "Gtda.Props.C125_radius_fit",
    "Gtda.Props.C125_neighbours_fit",
    "Gtda.Props.C125_not_fitted",
    "Gtda.Props.C125_unknown_metric",
    "Gtda.Props.C125_refuted_ties",
    "Gtda.Props.C125_refuted_metric",
    "Gtda.Props.C125_refuted_failed_fit"
   ],
   "note": "False in general: the two searches of KNeighborsLocalVietorisRips need not agree about ties, a metric set after fit is combined with the neighbourhoods of the old one, and a failed fit replaces the transformer of persistent homology (refuted with witnesses). Proved for radii after any history, for numbers of neighbours without ties and with large enough training sets (small ones: C73); a single training point is refused by KNeighborsLocalVietorisRips. Searches, pdist and the engine are parameters with their documented contracts."
  },
  {
   "property": "C126",
   "status": "partial",
   "theorems": [
    "Gtda.Props.C126_labeller_fit",
    "Gtda.Props.C126_labeller_not_fitted",
    "Gtda.Props.C126_labeller_partial",
    "Gtda.Props.C126_no_percentiles",
    "Gtda.Props.C126_refuted_size",
    "Gtda.Props.C126_refuted_failed_fit",
    "Gtda.Props.C126_refuted_func",
    "Gtda.Props.C126_takens_state",
    "Gtda.Props.C126_takens_not_fitted",
    "Gtda.Props.C126_takens_partial"
   ],
   "note": "Proved for parameter changes that keep size and function (Labeller) and for dimension at least two (SingleTakensEmbedding), after any history. False otherwise: changing size after fit or a refused second fit makes the two methods return different numbers of entries, and a changed function is compared with old thresholds (refuted with witnesses)."
  },
  {
   "property": "C127",
   "status": "partial",
   "theorems": [
    "Gtda.Props.C127_mid",
    "Gtda.Props.C127_length",
    "Gtda.Props.C127_infinite",
    "Gtda.Props.C127_open",
    "Gtda.Props.C127_text",
    "Gtda.Props.C127_interval_in_interval",
    "Gtda.Props.C127_hash",
    "Gtda.Props.C127_refuted_equality",
    "Gtda.Props.C127_floordiv_partial",
    "Gtda.Props.C127_floordiv_numbers",
    "Gtda.Props.C127_refuted_floordiv_open",
    "Gtda.Props.C127_refuted_floordiv_infinite",
    "Gtda.Props.C127_refuted_floordiv_negative"
   ],
   "note": "Proved for midpoint, length, open sides, text, hashes, and for floor division of intervals closed on both sides by positive numbers. False otherwise: floor division of open or unbounded intervals or by negative numbers, and intervals with the same value are not equal although they have the same hash (refuted)."
  },
  {
   "property": "C128",
   "status": "partial",
   "theorems": [
    "Gtda.Props.C128_sample_order",
    "Gtda.Props.C128_min_intersection",
    "Gtda.Props.C128_store_edge_elements",
    "Gtda.Props.C128_filter_values",
    "Gtda.Props.C128_refuted_increasing",
    "Gtda.Props.C128_refuted_contracted"
   ],
   "note": "Proved without contract_nodes for the order of the samples, with and without it for the other parts. With contract_nodes=True the graph depends on the order of the samples (refuted with a witness); a uniform cover reacts to increasing functions that are not affine (witness)."
  },
  {
   "property": "C129",
   "status": "partial",
   "theorems": [
    "Gtda.Props.C129_not_fitted",
    "Gtda.Props.C129_accepts",
    "Gtda.Props.C129_binarizer",
    "Gtda.Props.C129_inverter",
    "Gtda.Props.C129_padder",
    "Gtda.Props.C129_dilations",
    "Gtda.Props.C129_refuted_not_fitted",
    "Gtda.Props.C129_refuted_larger_images",
    "Gtda.Props.C129_accepts_balls",
    "Gtda.Props.C129_radial",
    "Gtda.Props.C129_density",
    "Gtda.Props.C129_accepts_height",
    "Gtda.Props.C129_height",
    "Gtda.Props.C129_refuted_failed_refit_height",
    "Gtda.Props.C129_refuted_failed_refit_radial",
    "Gtda.Props.C129_refuted_radial_broadcast",
    "Gtda.Props.C129_refuted_density_axes"
   ],
   "note": "Acceptance of fit, NotFittedError before any fit, and determination of transform by the last accepted fit are proved over all histories for Binarizer, Inverter, Padder and the three filtrations by dilation; for height, radial and density filtrations over all histories before an accepted fit and all harmless ones after it. Refuted: after a refused fit transform may raise AttributeError instead of NotFittedError; a refused fit can spoil a fitted height, radial or density filtration (the radial one silently gives wrong values); n_iterations=None does not reach all pixels of images larger than those of fit; radial filtrations broadcast along training axes of length 1; density filtrations fitted in 2D count within slices only in 3D."
  },
  {
   "property": "C130",
   "status": "proved",
   "theorems": [
    "Gtda.Props.C130_samplings",
    "Gtda.Props.C130_samplings_image",
    "Gtda.Props.C130_betti",
    "Gtda.Props.C130_landscape",
    "Gtda.Props.C130_silhouette",
    "Gtda.Props.C130_heat",
    "Gtda.Props.C130_image",
    "Gtda.Props.C130_refuted_heat_sigma",
    "Gtda.Props.C130_number_of_points",
    "Gtda.Props.C130_filtering",
    "Gtda.Props.C130_refuted_filtering_origin",
    "Gtda.Props.C130_entropy",
    "Gtda.Props.C130_refuted_entropy_normalized",
    "Gtda.Props.C130_distance",
    "Gtda.Props.C130_amplitude",
    "Gtda.Props.C130_scaler",
    "Gtda.Props.C130_scaler_lengths",
    "Gtda.Props.C130_real_engine",
    "Gtda.Props.C130_refuted_scaler"
   ],
   "note": "Where results do depend on the unit or the origin is stated by the C130_refuted_ theorems. Heat kernels and images: the smoothing filter may be any function of sigma divided by the step."
  },
  {
   "property": "C131",
   "status": "partial",
   "theorems": [
    "Gtda.Props.C131_heatmap",
    "Gtda.Props.C131_coordinates",
    "Gtda.Props.C131_params",
    "Gtda.Props.C131_unknown_property",
    "Gtda.Props.C131_plot",
    "Gtda.Props.C131_out_of_range",
    "Gtda.Props.C131_refuted_origin",
    "Gtda.Props.C131_refuted_keys",
    "Gtda.Props.C131_clouds",
    "Gtda.Props.C131_filtering",
    "Gtda.Props.C131_fit_transform_plot",
    "Gtda.Props.C131_refuted_last_sample",
    "Gtda.Props.C131_fit_fails"
   ],
   "note": "All plot methods for heat maps, clouds and filtered diagrams, and fit_transform_plot. Refuted for validation: values of origin other than 'lower' are taken for 'upper' and unknown keys of plotly_params are ignored without an error."
  },
  {
   "property": "C132",
   "status": "proved",
   "theorems": [
    "Gtda.Props.C132_symmetries",
    "Gtda.Props.C132_symmetry",
    "Gtda.Props.C132_monotone",
    "Gtda.Props.C132_complement",
    "Gtda.Props.C132_semigroup",
    "Gtda.Props.C132_lipschitz",
    "Gtda.Props.C132_height",
    "Gtda.Props.C132_height_flip",
    "Gtda.Props.C132_height_opposite",
    "Gtda.Props.C132_height_length",
    "Gtda.Props.C132_radial",
    "Gtda.Props.C132_density_symmetry",
    "Gtda.Props.C132_density_taxicab",
    "Gtda.Props.C132_density_images",
    "Gtda.Props.C132_density_radius"
   ],
   "note": "Reflections and exchanges of neighbouring axes are proved to be symmetries; other symmetries are compositions of these. C59 and C60 now give the exact max_value_."
  },
  {
   "property": "C133",
   "status": "partial",
   "theorems": [
    "Gtda.Props.C133_independent",
    "Gtda.Props.C133_clones",
    "Gtda.Props.C133_shared_pipeline",
    "Gtda.Props.C133_replaced",
    "Gtda.Props.C133_function",
    "Gtda.Props.C133_log",
    "Gtda.Props.C133_new_log",
    "Gtda.Props.C133_own_log_partial",
    "Gtda.Props.C133_refuted_own_log",
    "Gtda.Props.C133_displayed",
    "Gtda.Props.C133_attributes",
    "Gtda.Props.C133_refuted_replot",
    "Gtda.Props.C133_refuted_shared"
   ],
   "note": "False for several plots: C133_refuted_own_log, C133_refuted_replot, C133_refuted_shared; C133_own_log_partial is for sessions in which values are entered in one plot only and the front end empties the log in time, C133_log describes the logs in general."
  },
  {
   "property": "C134",
   "status": "partial",
   "theorems": [
    "Gtda.Props.C134_sections",
    "Gtda.Props.C134_words",
    "Gtda.Props.C134_docs_partial",
    "Gtda.Props.C134_refuted_returns",
    "Gtda.Props.C134_behaviour",
    "Gtda.Props.C134_refuted_empty"
   ],
   "note": "The docstring is proved for Returns sections of one paragraph and sections occurring once; refuted for several paragraphs (C134_refuted_returns) and for standard docstrings with an empty section (C134_refuted_empty). The standard docstring of scikit-learn and the word characters are parameters."
  },
  {
   "property": "C135",
   "status": "partial",
   "theorems": [
    "Gtda.Props.C135_takens_is_sliding",
    "Gtda.Props.C135_windows_of_points",
    "Gtda.Props.C135_windows_of_returns",
    "Gtda.Props.C135_resample_twice",
    "Gtda.Props.C135_returns_of_resampled",
    "Gtda.Props.C135_takens_of_resampled_partial",
    "Gtda.Props.C135_refuted_takens_of_resampled",
    "Gtda.Props.C135_stride",
    "Gtda.Props.C135_more_samples",
    "Gtda.Props.C135_refuted_later_samples"
   ],
   "note": "Proved in full except that the law about resampling before an embedding needs a number of samples that is one more than a multiple of the time delay, and that windows move when the number of later samples is no multiple of the stride (C135_refuted_\u2026)."
  },
  {
   "property": "C136",
   "status": "partial",
   "theorems": [
    "Gtda.Props.C136_pad_twice",
    "Gtda.Props.C136_pad_invert",
    "Gtda.Props.C136_fit_padded",
    "Gtda.Props.C136_refuted_pad_invert",
    "Gtda.Props.C136_pad_binarize",
    "Gtda.Props.C136_binarize_twice_partial",
    "Gtda.Props.C136_refuted_binarize_twice",
    "Gtda.Props.C136_threshold_monotone",
    "Gtda.Props.C136_cloud_of_padded",
    "Gtda.Props.C136_cloud_of_inverted",
    "Gtda.Props.C136_cloud_of_binarized"
   ],
   "note": "False in part, with witnesses: a maximum learnt from padded images includes the padding value, so the two orders of Padder and Inverter differ when it exceeds all pixels (C136_refuted_pad_invert); binarizing twice is not binarizing once for negative images with threshold 1 (C136_refuted_binarize_twice). The rest is proved for all collections."
  },
  {
   "property": "C137",
   "status": "proved",
   "theorems": [
    "Gtda.Props.C137_landscape",
    "Gtda.Props.C137_number_of_points",
    "Gtda.Props.C137_bottleneck",
    "Gtda.Props.C137_forget",
    "Gtda.Props.C137_heat",
    "Gtda.Props.C137_image",
    "Gtda.Props.C137_silhouette",
    "Gtda.Props.C137_wasserstein",
    "Gtda.Props.C137_entropy",
    "Gtda.Props.C137_polynomial"
   ],
   "note": ""
  },
  {
   "property": "C138",
   "status": "partial",
   "theorems": [
    "Gtda.Gudhi.C138_construct",
    "Gtda.Gudhi.C138_construct_periodic",
    "Gtda.Gudhi.C138_undefined",
    "Gtda.Gudhi.C138_history",
    "Gtda.Gudhi.C138_alive",
    "Gtda.Gudhi.C138_latest",
    "Gtda.Gudhi.C138_before",
    "Gtda.Gudhi.C138_intervals_partial",
    "Gtda.Gudhi.C138_refuted_array",
    "Gtda.Gudhi.C138_refuted_broken",
    "Gtda.Gudhi.C138_write",
    "Gtda.Gudhi.C138_rebuild",
    "Gtda.Gudhi.C138_rips",
    "Gtda.Gudhi.C138_refuted_sparse_none",
    "Gtda.Gudhi.C138_witness",
    "Gtda.Gudhi.C138_cubical",
    "Gtda.Gudhi.C138_cubical_diagram",
    "Gtda.Gudhi.C138_sparse_rips",
    "Gtda.Gudhi.C138_cech"
   ],
   "note": "False in parts: the array of no intervals has dimension 1 (C138_refuted_array), SparseRipsComplex raises for sparse=None (C138_refuted_sparse_none), and a refused call of persistence after a successful one makes the object unusable (C138_refuted_broken). Proved: constructors, history independence, stale Betti numbers of the last call, the calls of the transformers. Compiled code is a parameter."
  },
  {
   "property": "C139",
   "status": "proved",
   "theorems": [
    "Gtda.Props.Limits.C139_distance",
    "Gtda.Props.Limits.C139_amplitude",
    "Gtda.Props.Limits.C139_whole"
   ],
   "note": ""
  },
  {
   "property": "C140",
   "status": "proved",
   "theorems": [
    "Gtda.Props.C140_betti",
    "Gtda.Props.C140_entropy",
    "Gtda.Props.C140_silhouette",
    "Gtda.Props.C140_amplitude",
    "Gtda.Props.C140_refuted_betti",
    "Gtda.Props.C140_refuted_number",
    "Gtda.Props.C140_refuted_entropy"
   ],
   "note": "Bottleneck amplitudes, Betti distances (p=1, up to the sampling), entropies and silhouettes of diagrams with off-diagonal points. The conditions are needed: Betti distances without the term for the sampling and entropies of diagonal diagrams jump (C140_refuted_betti, C140_refuted_entropy), as do numbers of points (C140_refuted_number). Landscapes are treated in C100."
  },
  {
   "property": "C141",
   "status": "proved",
   "theorems": [
    "Gtda.Props.C141_distance",
    "Gtda.Props.C141_comparison",
    "Gtda.Props.C141_betti",
    "Gtda.Props.C141_landscape",
    "Gtda.Props.C141_amplitude",
    "Gtda.Props.C141_zero"
   ],
   "note": "Distances for exact engines (parameters of the model)."
  },
  {
   "property": "C142",
   "status": "proved",
   "theorems": [
    "Gtda.Props.C142_well_defined",
    "Gtda.Props.C142_renumbered",
    "Gtda.Props.C142_units",
    "Gtda.Props.C142_monotone",
    "Gtda.Props.C142_reversed_edges",
    "Gtda.Props.C142_renamed_states",
    "Gtda.Props.C142_reversed_time",
    "Gtda.Props.C142_reordered_points",
    "Gtda.Props.C142_asymmetric_order"
   ],
   "note": "Engine: any function correct on SciPy's documented domain; existence of shortest walks is proved for non-negative weights, for others it is a hypothesis (no negative cycles)."
  },
  {
   "property": "C143",
   "status": "proved",
   "theorems": [
    "Gtda.Props.C143_exchange",
    "Gtda.Props.C143_default_scale",
    "Gtda.Props.C143_relative_threshold",
    "Gtda.Props.C143_filter_then_fit",
    "Gtda.Props.C143_refuted_nothing_left",
    "Gtda.Props.C143_disjoint_filters",
    "Gtda.Props.C143_forget_dimension",
    "Gtda.Props.C143_refuted_same_threshold",
    "Gtda.Props.C143_refuted_wasserstein",
    "Gtda.Props.C143_refuted_block_order"
   ],
   "note": "all stated parts are proved; the limits of the statement are proved as refutations with witnesses"
  },
  {
   "property": "C144",
   "status": "proved",
   "theorems": [
    "Gtda.Props.C144_overlap_uniform",
    "Gtda.Props.C144_overlap_balanced",
    "Gtda.Props.C144_gap_parameters",
    "Gtda.Props.C144_coarser",
    "Gtda.Props.C144_units",
    "Gtda.Props.C144_refuted_small_fraction",
    "Gtda.Props.C144_refuted_freq_threshold",
    "Gtda.Props.C144_refuted_bins_start",
    "Gtda.Props.C144_refuted_more_intervals"
   ],
   "note": "Nesting of covers in the overlap, monotonicity of FirstSimpleGap and freedom from units of both gap clusterers; the false neighbours are refuted with witnesses. The tree builder and the cut are parameters."
  },
  {
   "property": "C145",
   "status": "proved",
   "theorems": [
    "Gtda.Props.Rates.C145_distance",
    "Gtda.Props.Rates.C145_amplitude",
    "Gtda.Props.Rates.C145_distance_sup",
    "Gtda.Props.Rates.C145_amplitude_sup",
    "Gtda.Props.Rates.C145_refuted_betti_sup"
   ],
   "note": "Explicit error bounds in the number of bins for all orders p; the claim for Betti curves with infinite p is refuted. Real arithmetic instead of floating point, as for C114."
  },
  {
   "property": "C146",
   "status": "proved",
   "theorems": [
    "Gtda.Props.C146_feature_order",
    "Gtda.Props.C146_feature_order_training",
    "Gtda.Props.C146_fewer_features",
    "Gtda.Props.C146_fewer_features_training",
    "Gtda.Props.C146_overlap_uniform",
    "Gtda.Props.C146_overlap_balanced",
    "Gtda.Props.C146_size_training",
    "Gtda.Props.C146_size",
    "Gtda.Props.C146_one_feature",
    "Gtda.Props.C146_refuted_set_order",
    "Gtda.Props.C146_refuted_large_overlap"
   ],
   "note": "All stated parts are proved; the false neighbours are refuted with witnesses."
  },
  {
   "property": "C147",
   "status": "proved",
   "theorems": [
    "Gtda.Props.C147_betti_landscape",
    "Gtda.Props.C147_layer_sum",
    "Gtda.Props.C147_number_of_points",
    "Gtda.Props.C147_silhouette_landscape",
    "Gtda.Props.C147_wasserstein_bottleneck",
    "Gtda.Props.C147_wasserstein_order",
    "Gtda.Props.C147_landscape_bottleneck",
    "Gtda.Props.C147_landscape_peak",
    "Gtda.Props.C147_silhouette_amplitude",
    "Gtda.Props.C147_layers",
    "Gtda.Props.C147_betti_points",
    "Gtda.Props.C147_reduced",
    "Gtda.Props.C147_entropy",
    "Gtda.Props.C147_refuted_birth",
    "Gtda.Props.C147_refuted_peak"
   ],
   "note": "Positivity of layers at births and equality of sup landscape and bottleneck amplitudes are false (C147_refuted_birth, C147_refuted_peak)"
  },
  {
   "property": "C148",
   "status": "proved",
   "theorems": [
    "Gtda.Props.C148_counts",
    "Gtda.Props.C148_path",
    "Gtda.Props.C148_cubical",
    "Gtda.Props.C148_coarser",
    "Gtda.Props.C148_refuted_overlap"
   ],
   "note": "The identities and bounds are proved for uniform and balanced covers with overlap at most one half, as stated; the triangle for larger overlaps is C148_refuted_overlap. Scaler, filter function, preprocessing and clusterers are parameters."
  },
  {
   "property": "C149",
   "status": "proved",
   "theorems": [
    "Gtda.Props.C149_values",
    "Gtda.Props.C149_units",
    "Gtda.Props.C149_time_order",
    "Gtda.Props.C149_variables",
    "Gtda.Props.C149_metric",
    "Gtda.Props.C149_refuted_triangle"
   ],
   "note": "Over the reals, as C13; constant variables give NaN (0/0) in exact arithmetic. The triangle inequality without square roots is C149_refuted_triangle."
  },
  {
   "property": "C150",
   "status": "proved",
   "theorems": [
    "Gtda.Props.C150_precomputed",
    "Gtda.Props.C150_similar",
    "Gtda.Props.C150_exponent",
    "Gtda.Props.C150_stable",
    "Gtda.Props.C150_lipschitz",
    "Gtda.Props.C150_diameter",
    "Gtda.Props.C150_more_samples",
    "Gtda.Props.C150_mapper_similar",
    "Gtda.Props.C150_mapper_precomputed"
   ],
   "note": "For the model of Eccentricity over the reals with the metric as a parameter; clusterers are parameters which look at distances only."
  },
  {
   "property": "C151",
   "status": "proved",
   "theorems": [
    "Gtda.Props.C151_metric",
    "Gtda.Props.C151_complete",
    "Gtda.Props.C151_more_neighbours",
    "Gtda.Props.C151_similar",
    "Gtda.Props.C151_steps"
   ],
   "note": "Neighbour searches and shortest path engines are parameters, correct on their documented domains; ties are left open by the search, hence the assumptions about ties."
  },
  {
   "property": "C152",
   "status": "proved",
   "theorems": [
    "Gtda.Props.C152_values",
    "Gtda.Props.C152_reverse",
    "Gtda.Props.C152_recover",
    "Gtda.Props.C152_refuted_recover",
    "Gtda.Props.C152_periodic",
    "Gtda.Props.C152_periodic_points",
    "Gtda.Props.C152_stable",
    "Gtda.Props.C152_recurrence",
    "Gtda.Props.C152_sine",
    "Gtda.Props.C152_entropy",
    "Gtda.Props.C152_refuted_entropy",
    "Gtda.Props.C152_periodic_entropy"
   ],
   "note": "For univariate series; order patterns as in C12 (ties in order of position)."
  },
  {
   "property": "C153",
   "status": "proved",
   "theorems": [
    "Gtda.Props.C153_transitions",
    "Gtda.Props.C153_connected",
    "Gtda.Props.C153_balance",
    "Gtda.Props.C153_repeated",
    "Gtda.Props.C153_refuted_weighted"
   ],
   "note": "Shortest-path engines are a parameter: any engine that returns least lengths of walks. Weighted distances: C153_refuted_weighted shows what the default does."
  },
  {
   "property": "C154",
   "status": "proved",
   "theorems": [
    "Gtda.Props.C154_dilation_erosion",
    "Gtda.Props.C154_refuted_erosion_union",
    "Gtda.Props.C154_height",
    "Gtda.Props.C154_radial",
    "Gtda.Props.C154_density",
    "Gtda.Props.C154_recover",
    "Gtda.Props.C154_stable",
    "Gtda.Props.C154_padding",
    "Gtda.Props.C154_border",
    "Gtda.Props.C154_closing",
    "Gtda.Props.C154_opening"
   ],
   "note": "all clauses; erosions of unions: witness that they are not maxima"
  },
  {
   "property": "C155",
   "status": "partial",
   "theorems": [
    "Gtda.Pipeline.C155_without_weights",
    "Gtda.Pipeline.C155_no_resampling",
    "Gtda.Pipeline.C155_weights_partial",
    "Gtda.Pipeline.C155_remedy",
    "Gtda.Pipeline.C155_refuted_dropped_samples"
   ],
   "note": "False if a step drops samples: C155_refuted_dropped_samples. C155_weights_partial says what the final estimator receives, C155_no_resampling covers all pipelines without resampling steps, C155_remedy how to obtain weights in place."
  },
  {
   "property": "C156",
   "status": "proved",
   "theorems": [
    "Gtda.Props.CurveDerivatives.C156_zero",
    "Gtda.Props.CurveDerivatives.C156_same",
    "Gtda.Props.CurveDerivatives.C156_reverse",
    "Gtda.Props.CurveDerivatives.C156_sum",
    "Gtda.Props.CurveDerivatives.C156_monotone",
    "Gtda.Props.CurveDerivatives.C156_stable",
    "Gtda.Props.CurveDerivatives.C156_sharp"
   ],
   "note": "All curves and orders."
  },
  {
   "property": "C157",
   "status": "proved",
   "theorems": [
    "Gtda.Props.BettiDerivatives.C157_betti",
    "Gtda.Props.BettiDerivatives.C157_variation",
    "Gtda.Props.BettiDerivatives.C157_landscape"
   ],
   "note": "All diagrams with birth at most death and all samplings."
  },
  {
   "property": "C158",
   "status": "proved",
   "theorems": [
    "Gtda.Props.SilhouettePowers.C158_lipschitz",
    "Gtda.Props.SilhouettePowers.C158_large_power",
    "Gtda.Props.SilhouettePowers.C158_small_power"
   ],
   "note": "Real arithmetic; all powers."
  },
  {
   "property": "C159",
   "status": "proved",
   "theorems": [
    "Gtda.Props.EntropyExtremes.C159_persistence",
    "Gtda.Props.EntropyExtremes.C159_permutation",
    "Gtda.Props.EntropyExtremes.C159_mapper"
   ],
   "note": "Stated for exact real arithmetic."
  },
  {
   "property": "C160",
   "status": "proved",
   "theorems": [
    "Gtda.Props.PolynomialContent.C160_determines",
    "Gtda.Props.PolynomialContent.C160_lifetimes",
    "Gtda.Props.PolynomialContent.C160_refuted_T",
    "Gtda.Props.PolynomialContent.C160_refuted_few",
    "Gtda.Props.PolynomialContent.C160_first"
   ],
   "note": "Exact real arithmetic. C160_refuted_T and C160_refuted_few are the witnesses for what is lost."
  },
  {
   "property": "C161",
   "status": "proved",
   "theorems": [
    "Gtda.Props.CurveFunctions.C161_values",
    "Gtda.Props.CurveFunctions.C161_order",
    "Gtda.Props.CurveFunctions.C161_stable",
    "Gtda.Props.CurveFunctions.C161_refuted_argmax",
    "Gtda.Props.CurveFunctions.C161_units"
   ],
   "note": "Exact real arithmetic. np.average with weights is not modelled. C161_refuted_argmax is the witness for positions."
  },
  {
   "property": "C162",
   "status": "proved",
   "theorems": [
    "Gtda.Props.C162_stable",
    "Gtda.Props.C162_bounds",
    "Gtda.Props.C162_betti"
   ],
   "note": "Arithmetic is exact; bottleneck distance as in Spec/Matching (half the lifetime for a point matched with the diagonal)."
  }
 ]
}