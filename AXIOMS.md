# Axioms of the property theorems

Generated by `tools/axioms.py` with `#print axioms`.

## Classical.choice, Quot.sound, propext

* `Gtda.Props.C01_sliding_window_transform`
* `Gtda.Props.C01_last_sample`
* `Gtda.Props.C02_sliding_resample_aligned_partial`
* `Gtda.Props.C02_size_one_resample_empty`
* `Gtda.Props.C03_slice_windows`
* `Gtda.Props.C04_takens_univariate`
* `Gtda.Props.C04_last_value`
* `Gtda.Props.C05_takens_resample_aligned_partial`
* `Gtda.Props.C05_dimension_one_resample_empty`
* `Gtda.Props.C06_takens_flatten_layout`
* `Gtda.Props.C07_takens_optimal`
* `Gtda.Props.C07_max_dimension_one_raises`
* `Gtda.Props.C07_search_dimension_ge_two`
* `Gtda.Props.C08_labeller_aligned`
* `Gtda.Props.C09_classify_sorted`
* `Gtda.Props.C09_labeller_classes`
* `Gtda.Props.C09_refuted_unsorted`
* `Gtda.Props.C09_empty_percentiles_raise`
* `Gtda.Props.C10_resampler`
* `Gtda.Props.C11_stationarizer_return`
* `Gtda.Props.C11_stationarizer_log_return`
* `Gtda.Props.C12_permutation_entropy`
* `Gtda.Props.C12_bounds_invariance`
* `Gtda.Props.C13_pearson_dissimilarity`
* `Gtda.Pipeline.C14_fit_transform_resample`
* `Gtda.Pipeline.C14_fit_transform`
* `Gtda.Pipeline.C14_score_on_training_data`
* `Gtda.Pipeline.C14_refuted_no_fit_transform`
* `Gtda.Pipeline.C15_invalid_steps`
* `Gtda.Pipeline.C15_unknown_step`
* `Gtda.Pipeline.C15_routing`
* `Gtda.Pipeline.C15_refuted_trailing_underscore`
* `Gtda.Props.C15_passthrough`
* `Gtda.Pipeline.C16_aligned`
* `Gtda.Pipeline.C16_series_chain`
* `Gtda.Props.C17_njobs_independent`
* `Gtda.Props.C17_njobs_map`
* `Gtda.Props.C17_njobs_independent_raising`
* `Gtda.Props.C18_check_diagrams`
* `Gtda.Props.C18_accepted`
* `Gtda.Props.C19_equal_counts_partial`
* `Gtda.Props.C19_at_most_two_partial`
* `Gtda.Props.C20_postprocess`
* `Gtda.Props.C20_no_uninitialised`
* `Gtda.Props.C21_rectangular`
* `Gtda.Props.C21_accepted`
* `Gtda.Props.C22_filtering`
* `Gtda.Props.C22_width`
* `Gtda.Props.C22_fit`
* `Gtda.Props.C23_compose`
* `Gtda.Props.C23_idempotent`
* `Gtda.Props.C23_equal_counts`
* `Gtda.Props.C24_forget_dimension`
* `Gtda.Props.C25_round_trip`
* `Gtda.Props.C25_round_trip_inverse_first`
* `Gtda.Props.C25_zero_scale`
* `Gtda.Props.C26_scaler_bottleneck`
* `Gtda.Props.C27_betti_curve`
* `Gtda.Props.C27_order_padding`
* `Gtda.Props.C27_additive`
* `Gtda.Props.C27_sum`
* `Gtda.Props.C28_landscape`
* `Gtda.Props.C28_nonneg_antitone`
* `Gtda.Props.C28_lipschitz`
* `Gtda.Props.C28_layers_independent`
* `Gtda.Props.C28_order_padding`
* `Gtda.Props.C29_weighted_average`
* `Gtda.Props.C29_order_padding`
* `Gtda.Props.C29_trivial_partial`
* `Gtda.Props.C29_refuted_trivial`
* `Gtda.Props.C30_raster`
* `Gtda.Props.C30_heat_antisymmetric`
* `Gtda.Props.C30_trivial`
* `Gtda.Props.C30_transform`
* `Gtda.Props.C30_order_padding`
* `Gtda.Props.C31_raster`
* `Gtda.Props.C31_transform`
* `Gtda.Props.C31_order_padding_partial`
* `Gtda.Props.C31_refuted`
* `Gtda.Props.C32_samplings`
* `Gtda.Props.C32_samplings_persistence_image`
* `Gtda.Props.C33_assembly`
* `Gtda.Props.C33_vectorised`
* `Gtda.Props.C33_matching`
* `Gtda.Props.C34_vectorised`
* `Gtda.Props.C34_landscape`
* `Gtda.Props.C34_silhouette_partial`
* `Gtda.Props.C34_aggregated`
* `Gtda.Props.C34_silhouette_aggregated_partial`
* `Gtda.Props.C34_refuted_order`
* `Gtda.Props.C35_landscape_amplitudes`
* `Gtda.Props.C35_landscape_distances`
* `Gtda.Props.C36_bottleneck`
* `Gtda.Props.C36_wasserstein`
* `Gtda.Props.C36_vectorised`
* `Gtda.Props.C36_padding_partial`
* `Gtda.Props.C36_trivial_partial`
* `Gtda.Props.C36_refuted_image`
* `Gtda.Props.C36_landscape`
* `Gtda.Props.C36_silhouette_partial`
* `Gtda.Props.C36_aggregated`
* `Gtda.Props.C37_persistence_entropy`
* `Gtda.Props.C37_uniform`
* `Gtda.Props.C38_number_of_points`
* `Gtda.Props.C38_after_filtering`
* `Gtda.Props.C39_coefficients_partial`
* `Gtda.Props.C39_invariance`
* `Gtda.Props.C39_refuted_trivial`
* `Gtda.Props.C39_fit`
* `Gtda.Props.C40_uniform_cover`
* `Gtda.Props.C40_transform_masks`
* `Gtda.Props.C41_balanced_cover`
* `Gtda.Props.C41_single_value_raises`
* `Gtda.Props.C42_refuted_stale_limits`
* `Gtda.Props.C42_cubical`
* `Gtda.Props.C43_clean_masks`
* `Gtda.Props.C44_boxes`
* `Gtda.Props.C44_fit_transform`
* `Gtda.Props.C45_labels`
* `Gtda.Props.C46_nerve`
* `Gtda.Props.C46_no_cluster_raises`
* `Gtda.Props.C47_contraction`
* `Gtda.Props.C48_attributes_partial`
* `Gtda.Props.C49_first_gap_partial`
* `Gtda.Props.C49_refuted_at_least_one`
* `Gtda.Props.C49_coinciding_samples`
* `Gtda.Props.C50_histogram_gap`
* `Gtda.C51_set`
* `Gtda.C51_nested`
* `Gtda.C51_get`
* `Gtda.C51_distinct`
* `Gtda.C51_round_trip`
* `Gtda.C51_shallow`
* `Gtda.C51_refuted_n_jobs`
* `Gtda.C51_unknown`
* `Gtda.C51_refuted_example`
* `Gtda.C51_steps`
* `Gtda.C51_replace`
* `Gtda.Props.C52_eccentricity`
* `Gtda.Props.C52_eccentricity_perm`
* `Gtda.Props.C52_entropy`
* `Gtda.Props.C52_entropy_invariant`
* `Gtda.Props.C52_entropy_zero_iff`
* `Gtda.C53_colors`
* `Gtda.C53_between`
* `Gtda.C53_scale`
* `Gtda.C53_list`
* `Gtda.C53_pairs`
* `Gtda.Props.C54_mapper_partial`
* `Gtda.Props.C54_refuted_contracted`
* `Gtda.Images.C55_threshold`
* `Gtda.Images.C55_monotone`
* `Gtda.Images.C55_scale_invariant`
* `Gtda.Images.C56_boolean`
* `Gtda.Images.C56_involution_partial`
* `Gtda.Images.C56_order_reversing`
* `Gtda.Images.C56_nonneg`
* `Gtda.Images.C56_refuted_true_on_numbers`
* `Gtda.Images.C57_pad`
* `Gtda.Images.C57_pad_partial`
* `Gtda.Images.C57_refuted_integer_images`
* `Gtda.Images.C58_points`
* `Gtda.Images.C59_height`
* `Gtda.Images.C59_one_dimensional`
* `Gtda.Images.C60_radial`
* `Gtda.Images.C61_dilation`
* `Gtda.Images.C61_distance_facts`
* `Gtda.Images.C62_erosion`
* `Gtda.Images.C62_erosion_is_dilation`
* `Gtda.Images.C63_signed_distance`
* `Gtda.Images.C64_density`
* `Gtda.Images.C65_density_batch`
* `Gtda.Images.C65_dilation_batch`
* `Gtda.Images.C65_erosion_batch`
* `Gtda.Images.C65_signed_batch`
* `Gtda.Images.C65_height_radial_batch`
* `Gtda.Props.C66_transitions`
* `Gtda.Props.C66_refuted_undirected_zero_one`
* `Gtda.Props.C67_refuted_witness`
* `Gtda.Props.C68_consistent_rescaling`
* `Gtda.Props.C68_scale_invariant`
* `Gtda.Props.C68_transform`
* `Gtda.Props.C68_points`
* `Gtda.Props.C68_refuted_kth_largest`
* `Gtda.Props.C69_consecutive_partial`
* `Gtda.Props.C69_points`
* `Gtda.Props.C69_refuted_symmetric`
* `Gtda.Props.C70_shortest_walks`
* `Gtda.Props.C71_weak_alpha_edges_partial`
* `Gtda.Props.C72_coned_matrix`
* `Gtda.Props.C74_collection_partial`
* `Gtda.Props.C75_validate_params_partial`
* `Gtda.Props.C75_refuted_n_neighbors_type`
* `Gtda.Props.C75_homology_dimensions`
* `Gtda.Props.C75_n_neighbors`
* `Gtda.Props.C76_members`
* `Gtda.Props.C76_is_empty`
* `Gtda.Props.C76_intersects_partial`
* `Gtda.Props.C76_refuted_intersects_empty`
* `Gtda.Props.C76_translate`
* `Gtda.Props.C76_scale`
* `Gtda.Props.C76_refuted_negative_factor`
* `Gtda.Props.C76_refuted_factor_zero`
* `Gtda.Props.C78_derivative`
* `Gtda.Props.C78_compose`
* `Gtda.Props.C78_linear`
* `Gtda.Props.C79_list_partial`
* `Gtda.Props.C79_callable`
* `Gtda.Props.C79_refuted_none_params`
* `Gtda.Props.C79_refuted_weights_none`
* `Gtda.Props.C79_refuted_rows_mixed`
* `Gtda.Props.C80_flagser`
* `Gtda.Props.C81_normalised_entropy`
* `Gtda.Pipeline.C82_no_lookahead`
* `Gtda.Pipeline.C82_no_lookahead_after_fit`
* `Gtda.Pipeline.C83_resample_partial`
* `Gtda.Pipeline.C84_inverse_partial`
* `Gtda.Props.C86_extended_pseudometric`
* `Gtda.Props.C87_refuted_second_radius_set_to_one`
* `Gtda.Props.C88_ripser`
* `Gtda.Props.C88_gudhi`
* `Gtda.Props.C88_order_of_dimensions`
* `Gtda.Props.C88_order_of_samples`
* `Gtda.Props.C88_batch`
* `Gtda.Props.C88_refuted_repeated_dimension`
* `Gtda.Props.C89_effective`
* `Gtda.Props.C89_rejected`
* `Gtda.Props.C90_cells`
* `Gtda.Props.C90_cubical`
* `Gtda.Props.C90_refuted_periodic_attribute`
* `Gtda.Props.C91_reduced_partial`
* `Gtda.Props.C91_refuted_place_in_list`
* `Gtda.C92_hover_labels`
* `Gtda.C92_refuted_constant_column`
* `Gtda.C93_sizeref`
* `Gtda.C93_hover_text`
* `Gtda.C93_texts`
* `Gtda.C93_menu`
* `Gtda.C94_significant_figures`
* `Gtda.C94_special`
* `Gtda.C94_exact`
* `Gtda.C94_ties`
* `Gtda.C95_make`
* `Gtda.C95_rebuild`
* `Gtda.C95_refuted_verbose`
* `Gtda.C95_refuted_filter`
* `Gtda.C96_list`
* `Gtda.C96_array`
* `Gtda.C96_slices`
* `Gtda.C96_refuted_no_points`
* `Gtda.C96_other_errors`
* `Gtda.C97_list`
* `Gtda.C97_array`
* `Gtda.C97_no_axes`
* `Gtda.Props.C98_exact`
* `Gtda.Props.C98_approximate`
* `Gtda.Props.C98_stable`
* `Gtda.Props.C99_bottleneck`
* `Gtda.Props.C99_wasserstein`
* `Gtda.Props.C99_lipschitz`
* `Gtda.Props.C100_landscape`
* `Gtda.Props.C100_distances`
* `Gtda.Plotting.C101_markers`
* `Gtda.Plotting.C101_default`
* `Gtda.Plotting.C101_axes`
* `Gtda.Plotting.C101_forget`
* `Gtda.Plotting.C102_transform_plot`
* `Gtda.Plotting.C102_diagrams`
* `Gtda.Plotting.C103_curves`
* `Gtda.Plotting.C103_landscapes`
* `Gtda.Plotting.C103_betti`
* `Gtda.Plotting.C104_curves_partial`
* `Gtda.Plotting.C104_surfaces_partial`
* `Gtda.Plotting.C105_all_channels_partial`
* `Gtda.Plotting.C106_heat`
* `Gtda.Plotting.C106_image`
* `Gtda.Props.C108_widgets`
* `Gtda.Props.C108_params`
* `Gtda.Props.C108_displayed`
* `Gtda.Props.C108_valid`
* `Gtda.Props.C108_invalid`
* `Gtda.Props.C108_refuted_stale`
* `Gtda.Props.C108_refuted_constant`
* `Gtda.Props.C108_refuted_custom`
* `Gtda.Props.C109_cloud`
* `Gtda.Props.C109_precomputed_partial`
* `Gtda.Props.C109_list`
* `Gtda.Props.C109_array`
* `Gtda.Props.C109_refuted_diagonal`
* `Gtda.Props.C109_not_symmetric`
* `Gtda.Props.C110_information`
* `Gtda.Props.C110_information_bounds`
* `Gtda.Props.C110_short`
* `Gtda.Props.C110_counts`
* `Gtda.Props.C110_counts_partial`
* `Gtda.Props.C110_refuted_ramp`
* `Gtda.Props.C110_affine`
* `Gtda.Props.C110_mutual_information`
* `Gtda.Props.C110_search`
* `Gtda.Props.C110_search_affine`
* `Gtda.Props.C111_features`
* `Gtda.Props.C111_plot`
* `Gtda.Props.C111_array_partial`
* `Gtda.Props.C111_rejected_empty`
* `Gtda.Props.C111_unknown_column`
* `Gtda.Props.C111_matrix_partial`
* `Gtda.Props.C111_refuted_matrix_labels`
* `Gtda.Props.C111_refuted_ignored`
* `Gtda.Props.C111_refuted_frame`
* `Gtda.Props.C112_lines`
* `Gtda.Props.C113_betti`
* `Gtda.Props.C113_landscape`
* `Gtda.Props.C113_heat`
* `Gtda.Props.C113_image`
* `Gtda.Props.C113_silhouette`
* `Gtda.Props.C113_history`
* `Gtda.Props.C113_set_after_fit`
* `Gtda.Props.C113_bins_after_fit`
* `Gtda.Props.C113_failed_fit_partial`
* `Gtda.Props.C113_refuted_one_bin`
* `Gtda.Props.C113_refuted_failed_fit`
* `Gtda.Props.C113_refuted_not_fitted`
* `Gtda.Props.C113_refuted_jobs`
* `Gtda.Props.C114_distance`
* `Gtda.Props.C114_pseudometric`
* `Gtda.Props.C114_amplitude`
* `Gtda.Props.C114_validation`
* `Gtda.Props.C114_matching_distance`
* `Gtda.Props.C114_bottleneck_amplitude`
* `Gtda.Props.C114_wasserstein_amplitude`
* `Gtda.Props.C114_history`
* `Gtda.Props.C114_set_after_fit`
* `Gtda.Props.C114_failed_fit_partial`
* `Gtda.Props.C114_refuted_one_bin`
* `Gtda.Props.C114_refuted_rejected_used`
* `Gtda.Props.C114_refuted_unusable`
* `Gtda.Props.C114_refuted_failed_fit`
* `Gtda.Props.C114_refuted_not_fitted`
* `Gtda.Props.C115_scale`
* `Gtda.Props.C115_refuted_no_function`
* `Gtda.Props.C115_transform`
* `Gtda.Props.C115_zero_scale`
* `Gtda.Props.C115_units`
* `Gtda.Props.C115_idempotent`
* `Gtda.Props.C115_not_fitted`
* `Gtda.Props.C115_history`
* `Gtda.Props.C115_failed_fits`
* `Gtda.Props.C115_refuted_not_fitted`
* `Gtda.Props.C115_refuted_negative_scale`
* `Gtda.Props.C115_refuted_zero_scale`
* `Gtda.Props.C116_fit`
* `Gtda.Props.C116_transform`
* `Gtda.Props.C116_rejected`
* `Gtda.Props.C116_history`
* `Gtda.Props.C116_training`
* `Gtda.Props.C116_set_after_fit_partial`
* `Gtda.Props.C116_failed_fit_partial`
* `Gtda.Props.C116_refuted_threshold`
* `Gtda.Props.C116_refuted_training_images`
* `Gtda.Props.C116_refuted_failed_fit`
* `Gtda.Props.C116_refuted_not_fitted`
* `Gtda.Props.C117_without_memory`
* `Gtda.Props.C117_with_memory`
* `Gtda.Props.C117_same`
* `Gtda.Props.C117_objects_kept`
* `Gtda.Props.C117_no_refit`
* `Gtda.Props.C117_sharing_matters`
* `Gtda.Props.C118_fit`
* `Gtda.Props.C118_available`
* `Gtda.Props.C118_transform`
* `Gtda.Props.C118_inverse`
* `Gtda.Props.C118_score`
* `Gtda.Props.C118_refuted_resample`
* `Gtda.Props.C118_refuted_incomplete`
* `Gtda.Props.C118_fitted`
* `Gtda.Props.C118_history`
* `Gtda.Props.C119_transform`
* `Gtda.Props.C119_transform_resample`
* `Gtda.Props.C119_inverse`
* `Gtda.Props.C119_score`
* `Gtda.Props.C119_refuted_resample`
* `Gtda.Props.C119_fit_predict`
* `Gtda.Props.C119_no_fit_predict`
* `Gtda.Props.C119_names`
* `Gtda.Props.C119_keywords`
* `Gtda.Props.C120_simple`
* `Gtda.Props.C120_histogram`
* `Gtda.Props.C120_failed_fit`
* `Gtda.Props.C120_linkage`
* `Gtda.Props.C120_refuted_stale_tree`
* `Gtda.Props.C120_refuted_linkage_one_sample`
* `Gtda.Props.C121_fit_iff`
* `Gtda.Props.C121_cubical_fit_iff`
* `Gtda.Props.C121_names_feature`
* `Gtda.Props.C121_history`
* `Gtda.Props.C121_intervals`
* `Gtda.Props.C121_cubical_history`
* `Gtda.Props.C121_one_feature`
* `Gtda.Props.C121_refuted_attribute_error`
* `Gtda.Props.C122_filters`
* `Gtda.Props.C122_projection`
* `Gtda.Props.C122_refuted_other_columns`
* `Gtda.Props.C122_multivariate`
* `Gtda.Props.C122_series`
* `Gtda.Props.C122_takens`
* `Gtda.Props.C122_diagrams_graphs`
* `Gtda.Props.C122_refuted_knn_stateless`
* `Gtda.Props.C122_transition`
* `Gtda.Props.C122_refuted_transition_parameters`
* `Gtda.Props.C122_images`
* `Gtda.Props.C122_refuted_failed_fit`
* `Gtda.Props.C123_union_fit_transform`
* `Gtda.Props.C123_union_transform`
* `Gtda.Props.C123_union_consistent`
* `Gtda.Props.C123_union_drop`
* `Gtda.Props.C123_union_all_dropped`
* `Gtda.Props.C123_union_example`
* `Gtda.Props.C123_refuted_union_list`
* `Gtda.Props.C123_name`
* `Gtda.Props.C123_identity`
* `Gtda.Props.C123_rows`
* `Gtda.Props.C123_collection_partial`
* `Gtda.Props.C124_points`
* `Gtda.Props.C124_points_none`
* `Gtda.Props.C124_entropy`
* `Gtda.Props.C124_filtering`
* `Gtda.Props.C124_filtering_example`
* `Gtda.Props.C124_polynomial_partial`
* `Gtda.Props.C124_refuted_failed_fit`
* `Gtda.Props.C124_refuted_shared_list`
* `Gtda.Props.C125_radius`
* `Gtda.Props.C125_neighbours_partial`
* `Gtda.Props.C125_rows`
* `Gtda.Props.C125_neighbours_fit`
* `Gtda.Props.C125_unknown_metric`
* `Gtda.Props.C125_refuted_ties`
* `Gtda.Props.C125_refuted_metric`
* `Gtda.Props.C125_refuted_failed_fit`
* `Gtda.Props.C126_labeller_fit`
* `Gtda.Props.C126_labeller_not_fitted`
* `Gtda.Props.C126_labeller_partial`
* `Gtda.Props.C126_no_percentiles`
* `Gtda.Props.C126_refuted_size`
* `Gtda.Props.C126_refuted_failed_fit`
* `Gtda.Props.C126_refuted_func`
* `Gtda.Props.C126_takens_state`
* `Gtda.Props.C126_takens_not_fitted`
* `Gtda.Props.C126_takens_partial`
* `Gtda.Props.C127_mid`
* `Gtda.Props.C127_length`
* `Gtda.Props.C127_infinite`
* `Gtda.Props.C127_text`
* `Gtda.Props.C127_floordiv_partial`
* `Gtda.Props.C127_refuted_floordiv_open`
* `Gtda.Props.C127_refuted_floordiv_negative`
* `Gtda.Props.C128_sample_order`
* `Gtda.Props.C128_filter_values`
* `Gtda.Props.C128_refuted_increasing`
* `Gtda.Props.C128_refuted_contracted`
* `Gtda.Props.C129_accepts`
* `Gtda.Props.C129_binarizer`
* `Gtda.Props.C129_inverter`
* `Gtda.Props.C129_padder`
* `Gtda.Props.C129_dilations`
* `Gtda.Props.C129_refuted_not_fitted`
* `Gtda.Props.C129_refuted_larger_images`
* `Gtda.Props.C129_accepts_balls`
* `Gtda.Props.C129_radial`
* `Gtda.Props.C129_density`
* `Gtda.Props.C129_accepts_height`
* `Gtda.Props.C129_height`
* `Gtda.Props.C129_refuted_failed_refit_height`
* `Gtda.Props.C129_refuted_failed_refit_radial`
* `Gtda.Props.C129_refuted_radial_broadcast`
* `Gtda.Props.C129_refuted_density_axes`
* `Gtda.Props.C130_samplings`
* `Gtda.Props.C130_samplings_image`
* `Gtda.Props.C130_betti`
* `Gtda.Props.C130_landscape`
* `Gtda.Props.C130_silhouette`
* `Gtda.Props.C130_heat`
* `Gtda.Props.C130_image`
* `Gtda.Props.C130_refuted_heat_sigma`
* `Gtda.Props.C130_number_of_points`
* `Gtda.Props.C130_filtering`
* `Gtda.Props.C130_refuted_filtering_origin`
* `Gtda.Props.C130_entropy`
* `Gtda.Props.C130_refuted_entropy_normalized`
* `Gtda.Props.C130_distance`
* `Gtda.Props.C130_amplitude`
* `Gtda.Props.C130_scaler`
* `Gtda.Props.C130_scaler_lengths`
* `Gtda.Props.C130_real_engine`
* `Gtda.Props.C130_refuted_scaler`
* `Gtda.Props.C131_plot`
* `Gtda.Props.C131_clouds`
* `Gtda.Props.C131_filtering`
* `Gtda.Props.C131_fit_transform_plot`
* `Gtda.Props.C132_symmetry`
* `Gtda.Props.C132_monotone`
* `Gtda.Props.C132_complement`
* `Gtda.Props.C132_semigroup`
* `Gtda.Props.C132_lipschitz`
* `Gtda.Props.C132_height`
* `Gtda.Props.C132_height_flip`
* `Gtda.Props.C132_height_opposite`
* `Gtda.Props.C132_height_length`
* `Gtda.Props.C132_radial`
* `Gtda.Props.C132_density_symmetry`
* `Gtda.Props.C132_density_taxicab`
* `Gtda.Props.C132_density_images`
* `Gtda.Props.C132_density_radius`
* `Gtda.Props.C133_independent`
* `Gtda.Props.C133_clones`
* `Gtda.Props.C133_shared_pipeline`
* `Gtda.Props.C133_replaced`
* `Gtda.Props.C133_log`
* `Gtda.Props.C133_new_log`
* `Gtda.Props.C133_own_log_partial`
* `Gtda.Props.C133_refuted_own_log`
* `Gtda.Props.C133_displayed`
* `Gtda.Props.C133_attributes`
* `Gtda.Props.C133_refuted_replot`
* `Gtda.Props.C133_refuted_shared`
* `Gtda.Props.C134_sections`
* `Gtda.Props.C134_words`
* `Gtda.Props.C134_docs_partial`
* `Gtda.Props.C134_refuted_returns`
* `Gtda.Props.C134_behaviour`
* `Gtda.Props.C134_refuted_empty`
* `Gtda.Props.C135_windows_of_points`
* `Gtda.Props.C135_windows_of_returns`
* `Gtda.Props.C135_resample_twice`
* `Gtda.Props.C135_returns_of_resampled`
* `Gtda.Props.C135_takens_of_resampled_partial`
* `Gtda.Props.C135_stride`
* `Gtda.Props.C135_more_samples`
* `Gtda.Props.C136_pad_twice`
* `Gtda.Props.C136_pad_invert`
* `Gtda.Props.C136_fit_padded`
* `Gtda.Props.C136_refuted_pad_invert`
* `Gtda.Props.C136_pad_binarize`
* `Gtda.Props.C136_binarize_twice_partial`
* `Gtda.Props.C136_refuted_binarize_twice`
* `Gtda.Props.C136_threshold_monotone`
* `Gtda.Props.C136_cloud_of_padded`
* `Gtda.Props.C136_cloud_of_inverted`
* `Gtda.Props.C136_cloud_of_binarized`
* `Gtda.Props.C137_landscape`
* `Gtda.Props.C137_number_of_points`
* `Gtda.Props.C137_bottleneck`
* `Gtda.Props.C137_forget`
* `Gtda.Props.C137_heat`
* `Gtda.Props.C137_image`
* `Gtda.Props.C137_silhouette`
* `Gtda.Props.C137_wasserstein`
* `Gtda.Props.C137_entropy`
* `Gtda.Props.C137_polynomial`
* `Gtda.Gudhi.C138_construct`
* `Gtda.Gudhi.C138_construct_periodic`
* `Gtda.Gudhi.C138_intervals_partial`
* `Gtda.Gudhi.C138_cubical`
* `Gtda.Gudhi.C138_cubical_diagram`
* `Gtda.Props.Limits.C139_distance`
* `Gtda.Props.Limits.C139_amplitude`
* `Gtda.Props.Limits.C139_whole`
* `Gtda.Props.C140_betti`
* `Gtda.Props.C140_entropy`
* `Gtda.Props.C140_silhouette`
* `Gtda.Props.C140_amplitude`
* `Gtda.Props.C140_refuted_betti`
* `Gtda.Props.C140_refuted_number`
* `Gtda.Props.C140_refuted_entropy`
* `Gtda.Props.C141_distance`
* `Gtda.Props.C141_comparison`
* `Gtda.Props.C141_betti`
* `Gtda.Props.C141_landscape`
* `Gtda.Props.C141_amplitude`
* `Gtda.Props.C141_zero`
* `Gtda.Props.C142_well_defined`
* `Gtda.Props.C142_renumbered`
* `Gtda.Props.C142_units`
* `Gtda.Props.C142_monotone`
* `Gtda.Props.C142_reversed_edges`
* `Gtda.Props.C142_renamed_states`
* `Gtda.Props.C142_reversed_time`
* `Gtda.Props.C142_reordered_points`
* `Gtda.Props.C142_asymmetric_order`
* `Gtda.Props.C143_exchange`
* `Gtda.Props.C143_default_scale`
* `Gtda.Props.C143_relative_threshold`
* `Gtda.Props.C143_filter_then_fit`
* `Gtda.Props.C143_refuted_nothing_left`
* `Gtda.Props.C143_disjoint_filters`
* `Gtda.Props.C143_forget_dimension`
* `Gtda.Props.C143_refuted_same_threshold`
* `Gtda.Props.C143_refuted_wasserstein`
* `Gtda.Props.C143_refuted_block_order`
* `Gtda.Props.C144_overlap_uniform`
* `Gtda.Props.C144_overlap_balanced`
* `Gtda.Props.C144_gap_parameters`
* `Gtda.Props.C144_coarser`
* `Gtda.Props.C144_units`
* `Gtda.Props.C144_refuted_small_fraction`
* `Gtda.Props.C144_refuted_freq_threshold`
* `Gtda.Props.C144_refuted_bins_start`
* `Gtda.Props.C144_refuted_more_intervals`
* `Gtda.Props.Rates.C145_distance`
* `Gtda.Props.Rates.C145_amplitude`
* `Gtda.Props.Rates.C145_distance_sup`
* `Gtda.Props.Rates.C145_amplitude_sup`
* `Gtda.Props.Rates.C145_refuted_betti_sup`
* `Gtda.Props.C146_feature_order`
* `Gtda.Props.C146_feature_order_training`
* `Gtda.Props.C146_fewer_features`
* `Gtda.Props.C146_fewer_features_training`
* `Gtda.Props.C146_overlap_uniform`
* `Gtda.Props.C146_overlap_balanced`
* `Gtda.Props.C146_size_training`
* `Gtda.Props.C146_size`
* `Gtda.Props.C146_one_feature`
* `Gtda.Props.C146_refuted_set_order`
* `Gtda.Props.C146_refuted_large_overlap`
* `Gtda.Props.C147_betti_landscape`
* `Gtda.Props.C147_layer_sum`
* `Gtda.Props.C147_number_of_points`
* `Gtda.Props.C147_silhouette_landscape`
* `Gtda.Props.C147_wasserstein_bottleneck`
* `Gtda.Props.C147_wasserstein_order`
* `Gtda.Props.C147_landscape_bottleneck`
* `Gtda.Props.C147_landscape_peak`
* `Gtda.Props.C147_silhouette_amplitude`
* `Gtda.Props.C147_layers`
* `Gtda.Props.C147_betti_points`
* `Gtda.Props.C147_reduced`
* `Gtda.Props.C147_entropy`
* `Gtda.Props.C147_refuted_birth`
* `Gtda.Props.C147_refuted_peak`
* `Gtda.Props.C148_counts`
* `Gtda.Props.C148_path`
* `Gtda.Props.C148_cubical`
* `Gtda.Props.C148_coarser`
* `Gtda.Props.C148_refuted_overlap`
* `Gtda.Props.C149_values`
* `Gtda.Props.C149_units`
* `Gtda.Props.C149_time_order`
* `Gtda.Props.C149_variables`
* `Gtda.Props.C149_metric`
* `Gtda.Props.C149_refuted_triangle`
* `Gtda.Props.C150_precomputed`
* `Gtda.Props.C150_similar`
* `Gtda.Props.C150_exponent`
* `Gtda.Props.C150_stable`
* `Gtda.Props.C150_lipschitz`
* `Gtda.Props.C150_diameter`
* `Gtda.Props.C150_more_samples`
* `Gtda.Props.C150_mapper_similar`
* `Gtda.Props.C150_mapper_precomputed`
* `Gtda.Props.C151_metric`
* `Gtda.Props.C151_complete`
* `Gtda.Props.C151_more_neighbours`
* `Gtda.Props.C151_similar`
* `Gtda.Props.C151_steps`
* `Gtda.Props.C152_values`
* `Gtda.Props.C152_reverse`
* `Gtda.Props.C152_recover`
* `Gtda.Props.C152_periodic`
* `Gtda.Props.C152_periodic_points`
* `Gtda.Props.C152_stable`
* `Gtda.Props.C152_recurrence`
* `Gtda.Props.C152_sine`
* `Gtda.Props.C152_entropy`
* `Gtda.Props.C152_refuted_entropy`
* `Gtda.Props.C152_periodic_entropy`
* `Gtda.Props.C153_transitions`
* `Gtda.Props.C153_connected`
* `Gtda.Props.C153_balance`
* `Gtda.Props.C153_repeated`
* `Gtda.Props.C153_refuted_weighted`
* `Gtda.Props.C154_dilation_erosion`
* `Gtda.Props.C154_refuted_erosion_union`
* `Gtda.Props.C154_height`
* `Gtda.Props.C154_radial`
* `Gtda.Props.C154_density`
* `Gtda.Props.C154_recover`
* `Gtda.Props.C154_stable`
* `Gtda.Props.C154_padding`
* `Gtda.Props.C154_border`
* `Gtda.Props.C154_closing`
* `Gtda.Props.C154_opening`
* `Gtda.Pipeline.C155_weights_partial`
* `Gtda.Pipeline.C155_remedy`
* `Gtda.Props.CurveDerivatives.C156_zero`
* `Gtda.Props.CurveDerivatives.C156_same`
* `Gtda.Props.CurveDerivatives.C156_reverse`
* `Gtda.Props.CurveDerivatives.C156_sum`
* `Gtda.Props.CurveDerivatives.C156_monotone`
* `Gtda.Props.CurveDerivatives.C156_stable`
* `Gtda.Props.CurveDerivatives.C156_sharp`
* `Gtda.Props.BettiDerivatives.C157_betti`
* `Gtda.Props.BettiDerivatives.C157_variation`
* `Gtda.Props.BettiDerivatives.C157_landscape`
* `Gtda.Props.SilhouettePowers.C158_lipschitz`
* `Gtda.Props.SilhouettePowers.C158_large_power`
* `Gtda.Props.SilhouettePowers.C158_small_power`
* `Gtda.Props.EntropyExtremes.C159_persistence`
* `Gtda.Props.EntropyExtremes.C159_permutation`
* `Gtda.Props.EntropyExtremes.C159_mapper`
* `Gtda.Props.PolynomialContent.C160_determines`
* `Gtda.Props.PolynomialContent.C160_lifetimes`
* `Gtda.Props.PolynomialContent.C160_refuted_T`
* `Gtda.Props.PolynomialContent.C160_refuted_few`
* `Gtda.Props.PolynomialContent.C160_first`
* `Gtda.Props.CurveFunctions.C161_values`
* `Gtda.Props.CurveFunctions.C161_order`
* `Gtda.Props.CurveFunctions.C161_stable`
* `Gtda.Props.CurveFunctions.C161_refuted_argmax`
* `Gtda.Props.CurveFunctions.C161_units`
* `Gtda.Props.C162_stable`
* `Gtda.Props.C162_bounds`
* `Gtda.Props.C162_betti`

## Quot.sound, propext

* `Gtda.Props.C06_takens_multi`
* `Gtda.Props.C08_labeller_short`
* `Gtda.Props.C12_pattern_unique`
* `Gtda.Props.C17_slices_partition`
* `Gtda.Props.C17_schedule_independent`
* `Gtda.Props.C19_refuted_three_diagrams`
* `Gtda.Props.C40_single_value_raises`
* `Gtda.Props.C42_one_dimensional_partial`
* `Gtda.Props.C45_two_metric_parameters`
* `Gtda.Props.C48_refuted_attributes`
* `Gtda.Props.C48_refuted_multiple_edges`
* `Gtda.Props.C48_refuted_loops`
* `Gtda.Props.C49_single_sample`
* `Gtda.Props.C49_refuted_max_fraction_none`
* `Gtda.Props.C50_two_samples`
* `Gtda.Props.C50_refuted_documented_threshold`
* `Gtda.C53_hex_round_trip`
* `Gtda.C53_hex_read`
* `Gtda.C53_no_range`
* `Gtda.Images.C55_fit_max`
* `Gtda.Images.C56_refuted_false_on_booleans`
* `Gtda.Images.C57_fit`
* `Gtda.Images.C57_negative`
* `Gtda.Images.C58_one_point_per_pixel`
* `Gtda.Images.C61_max_value`
* `Gtda.Props.C71_refuted_last_isolated`
* `Gtda.Props.C73_refit_partial`
* `Gtda.Props.C73_radius_refit`
* `Gtda.Props.C76_refuted_number_on_the_left`
* `Gtda.Props.C79_string`
* `Gtda.Props.C79_wrong_length`
* `Gtda.Props.C79_refused`
* `Gtda.Pipeline.C84_refuted_inverse`
* `Gtda.Props.C85_projection`
* `Gtda.Props.C87_refuted_set_n_neighbors`
* `Gtda.Props.C87_refuted_set_radii`
* `Gtda.Props.C88_no_dimensions`
* `Gtda.Props.C89_other_string`
* `Gtda.Props.C89_unknown_name`
* `Gtda.C93_statistics`
* `Gtda.C93_too_many_names`
* `Gtda.Plotting.C101_names`
* `Gtda.Plotting.C101_refuted_one_birth`
* `Gtda.Plotting.C102_refuted_minus_one`
* `Gtda.Plotting.C103_unknown`
* `Gtda.Plotting.C104_refuted_default_samplings`
* `Gtda.Plotting.C107_cloud_partial`
* `Gtda.Plotting.C107_rejected`
* `Gtda.Plotting.C107_refuted_one_coordinate`
* `Gtda.Props.C109_rejected`
* `Gtda.Props.C109_every_array`
* `Gtda.Props.C109_unfitted`
* `Gtda.Props.C111_rejected`
* `Gtda.Props.C113_ignored_after_fit`
* `Gtda.Props.C114_ignored_after_fit`
* `Gtda.Props.C116_ignored_after_fit`
* `Gtda.Props.C119_resample_partial`
* `Gtda.Props.C120_latest_fit`
* `Gtda.Props.C120_invalid`
* `Gtda.Props.C120_parallel_failed`
* `Gtda.Props.C122_projection_other_columns`
* `Gtda.Props.C122_knn`
* `Gtda.Props.C122_knn_partial`
* `Gtda.Props.C123_method`
* `Gtda.Props.C123_nerve_fit`
* `Gtda.Props.C125_radius_fit`
* `Gtda.Props.C125_not_fitted`
* `Gtda.Props.C127_hash`
* `Gtda.Props.C127_refuted_equality`
* `Gtda.Props.C127_floordiv_numbers`
* `Gtda.Props.C127_refuted_floordiv_infinite`
* `Gtda.Props.C128_min_intersection`
* `Gtda.Props.C128_store_edge_elements`
* `Gtda.Props.C131_heatmap`
* `Gtda.Props.C131_coordinates`
* `Gtda.Props.C131_params`
* `Gtda.Props.C131_unknown_property`
* `Gtda.Props.C131_out_of_range`
* `Gtda.Props.C131_refuted_origin`
* `Gtda.Props.C131_refuted_keys`
* `Gtda.Props.C131_refuted_last_sample`
* `Gtda.Props.C132_symmetries`
* `Gtda.Props.C135_takens_is_sliding`
* `Gtda.Gudhi.C138_history`
* `Gtda.Gudhi.C138_alive`
* `Gtda.Gudhi.C138_latest`
* `Gtda.Gudhi.C138_rebuild`
* `Gtda.Pipeline.C155_without_weights`
* `Gtda.Pipeline.C155_no_resampling`

## none

* `Gtda.Props.C69_refuted_integer_matrices`
* `Gtda.Props.C70_refuted_default_directed`
* `Gtda.Props.C73_refuted_refit`
* `Gtda.Props.C87_refuted_witness`
* `Gtda.Props.C123_clustering_transform`
* `Gtda.Props.C129_not_fitted`
* `Gtda.Gudhi.C138_rips`
* `Gtda.Gudhi.C138_refuted_sparse_none`

## propext

* `Gtda.Props.C02_refuted`
* `Gtda.Props.C05_refuted`
* `Gtda.Props.C10_documented_length_refuted`
* `Gtda.Props.C67_refuted_func_params`
* `Gtda.Props.C71_refuted_isolated_point`
* `Gtda.Props.C74_refuted_not_an_estimator`
* `Gtda.Props.C75_refuted_nested_sequences`
* `Gtda.Props.C75_bool_is_int`
* `Gtda.Props.C77_refuted_pickling`
* `Gtda.Props.C77_keyword_would_do`
* `Gtda.Props.C78_rejected`
* `Gtda.Props.C79_refuted_identity_in_list`
* `Gtda.Props.C79_refuted_entry_types`
* `Gtda.Pipeline.C83_refuted_resample`
* `Gtda.Pipeline.C83_refuted_raises`
* `Gtda.Props.C85_callable_on_rows_partial`
* `Gtda.Props.C85_refuted_axis_without_keepdims`
* `Gtda.Plotting.C104_refuted_dimensions`
* `Gtda.Plotting.C105_refuted_channels`
* `Gtda.Plotting.C105_refuted_abscissae`
* `Gtda.Props.C108_clone`
* `Gtda.Props.C108_refuted_white`
* `Gtda.Props.C116_not_fitted`
* `Gtda.Props.C120_parallel`
* `Gtda.Props.C120_parallel_kept`
* `Gtda.Props.C120_parallel_masks`
* `Gtda.Props.C123_method_fit_transform_partial`
* `Gtda.Props.C123_refuted_own_fit_transform`
* `Gtda.Props.C123_collection_refused`
* `Gtda.Props.C123_collection_example`
* `Gtda.Props.C127_open`
* `Gtda.Props.C127_interval_in_interval`
* `Gtda.Props.C131_fit_fails`
* `Gtda.Props.C133_function`
* `Gtda.Props.C135_refuted_takens_of_resampled`
* `Gtda.Props.C135_refuted_later_samples`
* `Gtda.Gudhi.C138_undefined`
* `Gtda.Gudhi.C138_before`
* `Gtda.Gudhi.C138_refuted_array`
* `Gtda.Gudhi.C138_refuted_broken`
* `Gtda.Gudhi.C138_write`
* `Gtda.Gudhi.C138_witness`
* `Gtda.Gudhi.C138_sparse_rips`
* `Gtda.Gudhi.C138_cech`
* `Gtda.Props.C152_refuted_recover`
* `Gtda.Pipeline.C155_refuted_dropped_samples`
