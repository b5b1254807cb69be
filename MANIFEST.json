{
 "claims": [
  {
   "property": "C01",
   "status": "proved",
   "theorems": [
    "C01_formats_agree",
    "C01_sill_wins",
    "C01_linear_agree",
    "C01_power_agree",
    "C01_meaning",
    "C01_missing_key",
    "C01_wrong_length",
    "C01_type_errors",
    "C01_unknown_model",
    "C01_none_is_fitted",
    "C01_meaning_2d",
    "C01_meaning_3d",
    "C01_meaning_uk",
    "C01_meaning_uk3d"
   ],
   "note": ""
  },
  {
   "property": "C02",
   "status": "proved",
   "theorems": [
    "C02_nugget",
    "C02_monotone",
    "C02_bounds",
    "C02_sill",
    "C02_practical_range",
    "C02_hole_effect"
   ],
   "note": ""
  },
  {
   "property": "C03",
   "status": "proved",
   "theorems": [
    "C03_agree",
    "C03_spherical_at_range",
    "C03_not_compiled"
   ],
   "note": ""
  },
  {
   "property": "C04",
   "status": "proved",
   "theorems": [
    "C04_constant_2d",
    "C04_shift_2d",
    "C04_constant_3d",
    "C04_shift_3d",
    "C04_constant_uk",
    "C04_shift_uk",
    "C04_constant_uk3d",
    "C04_shift_uk3d"
   ],
   "note": ""
  },
  {
   "property": "C05",
   "status": "proved",
   "theorems": [
    "C05_exact_2d",
    "C05_exact_3d",
    "C05_exact_uk",
    "C05_exact_uk3d"
   ],
   "note": ""
  },
  {
   "property": "C06",
   "status": "proved",
   "theorems": [
    "C06_exact_irrelevant_2d",
    "C06_exact_irrelevant_3d",
    "C06_exact_irrelevant_uk",
    "C06_exact_irrelevant_uk3d"
   ],
   "note": ""
  },
  {
   "property": "C07",
   "status": "proved",
   "theorems": [
    "C07_linear_2d",
    "C07_linear_3d",
    "C07_linear_uk",
    "C07_linear_uk3d",
    "C07_negate_2d",
    "C07_negate_3d",
    "C07_negate_uk",
    "C07_negate_uk3d"
   ],
   "note": ""
  },
  {
   "property": "C08",
   "status": "proved",
   "theorems": [
    "C08_rescale_2d",
    "C08_rescale_3d",
    "C08_rescale_uk",
    "C08_rescale_uk3d"
   ],
   "note": ""
  },
  {
   "property": "C09",
   "status": "proved",
   "theorems": [
    "C09_backends_2d",
    "C09_refused_2d",
    "C09_backends_3d",
    "C09_backends_uk",
    "C09_loop_accepts_uk",
    "C09_vectorized_accepts_uk",
    "C09_backends_uk3d"
   ],
   "note": ""
  },
  {
   "property": "C10",
   "status": "proved",
   "theorems": [
    "C10_full_window_2d",
    "C10_full_window_conv_2d",
    "C10_full_window_3d",
    "C10_full_window_conv_3d",
    "C10_order_2d",
    "C10_order_3d",
    "C10_python_c"
   ],
   "note": ""
  },
  {
   "property": "C11",
   "status": "proved",
   "theorems": [
    "C11_neighbours_2d",
    "C11_subset_exists_2d",
    "C11_neighbours_3d",
    "C11_others_2d",
    "C11_others_3d"
   ],
   "note": ""
  },
  {
   "property": "C12",
   "status": "proved",
   "theorems": [
    "C12_grid_2d",
    "C12_grid_exists_2d",
    "C12_grid_3d",
    "C12_grid_exists_3d",
    "C12_grid_uk",
    "C12_grid_exists_uk",
    "C12_grid_uk3d",
    "C12_grid_exists_uk3d"
   ],
   "note": ""
  },
  {
   "property": "C13",
   "status": "proved",
   "theorems": [
    "C13_masked_2d",
    "C13_grid_2d",
    "C13_refused_2d",
    "C13_masked_3d",
    "C13_grid_3d",
    "C13_refused_3d",
    "C13_masked_uk",
    "C13_grid_uk",
    "C13_refused_uk",
    "C13_masked_uk3d",
    "C13_grid_uk3d",
    "C13_refused_uk3d"
   ],
   "note": ""
  },
  {
   "property": "C14",
   "status": "proved",
   "theorems": [
    "C14_pick_2d",
    "C14_append_2d",
    "C14_pick_3d",
    "C14_append_3d",
    "C14_pick_uk",
    "C14_append_uk",
    "C14_pick_uk3d",
    "C14_append_uk3d"
   ],
   "note": ""
  },
  {
   "property": "C15",
   "status": "proved",
   "theorems": [
    "C15_experimental_variogram",
    "C15_create_ok",
    "C15_ok",
    "C15_ok3",
    "C15_uk",
    "C15_uk3"
   ],
   "note": ""
  },
  {
   "property": "C16",
   "status": "proved",
   "theorems": [
    "C16_centre_2d",
    "C16_centre_3d",
    "C16_plain_2d",
    "C16_plain_3d",
    "C16_period_2d",
    "C16_half_period_2d",
    "C16_period_3d",
    "C16_swap_axes",
    "C16_metric_2d",
    "C16_metric_3d",
    "C16_separates_2d",
    "C16_identity_2d",
    "C16_identity_3d",
    "C16_only_distances_2d",
    "C16_only_distances_3d",
    "C16_angle_irrelevant_2d",
    "C16_full_turn_2d",
    "C16_angle_irrelevant_3d",
    "C16_full_turn_3d",
    "C16_angle_irrelevant_uk",
    "C16_full_turn_uk",
    "C16_full_turn_uk3d"
   ],
   "note": ""
  },
  {
   "property": "C17",
   "status": "proved",
   "theorems": [
    "C17_distance_turns",
    "C17_distance_shifts_2d",
    "C17_distance_shifts_3d",
    "C17_distance_orthogonal_3d",
    "C17_distance_longitude",
    "C17_shift_ok",
    "C17_longitude_ok",
    "C17_rotate_ok",
    "C17_rotate_isotropic_ok",
    "C17_shift_ok3",
    "C17_rotate_isotropic_ok3",
    "C17_shift_uk",
    "C17_shift_uk3",
    "C17_affine_uk",
    "C17_affine_uk3",
    "C17_rotate_uk",
    "C17_rotate_isotropic_uk3",
    "C17_distance_globe",
    "C17_globe_ok",
    "C17_sameplace_ok",
    "C17_distance_mirrors",
    "C17_mirror_ok",
    "C17_mirror_uk",
    "C17_swap_ok",
    "C17_swap_uk",
    "C17_moved_uk3",
    "C17_moved_uk",
    "C17_wells_rotate_uk"
   ],
   "note": ""
  },
  {
   "property": "C18",
   "status": "proved",
   "theorems": [
    "C18_groups",
    "C18_number_of_pairs",
    "C18_lags_increase",
    "C18_ranges",
    "C18_weighted_mean",
    "C18_too_few",
    "C18_accepted",
    "C18_object_ok",
    "C18_object_ok3",
    "C18_object_uk",
    "C18_object_uk3"
   ],
   "note": ""
  },
  {
   "property": "C19",
   "status": "proved",
   "theorems": [
    "C19_fit",
    "C19_bounds_ok",
    "C19_refused_ok",
    "C19_bounds_ok3",
    "C19_refused_ok3",
    "C19_bounds_uk",
    "C19_refused_uk",
    "C19_bounds_uk3",
    "C19_refused_uk3",
    "C19_accepted_ok",
    "C19_constant_ok",
    "C19_accepted_statistics_ok",
    "C19_accepted_ok3",
    "C19_accepted_uk",
    "C19_accepted_uk3"
   ],
   "note": ""
  },
  {
   "property": "C20",
   "status": "proved",
   "theorems": [
    "C20_statistics",
    "C20_wellformed",
    "C20_causal",
    "C20_summary",
    "C20_object_ok",
    "C20_object_ok3",
    "C20_object_uk",
    "C20_object_uk3"
   ],
   "note": ""
  },
  {
   "property": "C21",
   "status": "proved",
   "theorems": [
    "C21_drift_uk",
    "C21_drift_uk3d",
    "C21_affine_uk",
    "C21_affine_uk3d"
   ],
   "note": ""
  },
  {
   "property": "C22",
   "status": "proved",
   "theorems": [
    "C22_create_2d",
    "C22_create_3d",
    "C22_same_2d",
    "C22_same_3d",
    "C22_no_warning_2d",
    "C22_no_warning_3d"
   ],
   "note": ""
  },
  {
   "property": "C23",
   "status": "proved",
   "theorems": [
    "C23_bilinear",
    "C23_node",
    "C23_inside",
    "C23_exact",
    "C23_outside",
    "C23_shape",
    "C23_create_refused",
    "C23_execute_refused",
    "C23_decreasing_axis_fails"
   ],
   "note": ""
  },
  {
   "property": "C24",
   "status": "partial",
   "theorems": [
    "C24_loop_reads_rows_uk",
    "C24_constant_uk_partial",
    "C24_loop_fails_uk",
    "C24_loop_reads_rows_uk3d",
    "C24_constant_uk3d_partial",
    "C24_loop_fails_uk3d",
    "C24_loop_wrong"
   ],
   "note": "The claim as stated holds for backend='vectorized' (C21/C23 cover it) and is FALSE of the code for backend='loop' (uk.py:1070, uk3d.py:857 take spec_vals.flatten()[i] with the drift row index i instead of the point index): C24_loop_wrong proves the negation on a concrete call; C24_loop_reads_rows_* characterise exactly what the loop reads, and the _partial theorems give the cases in which it is right."
  },
  {
   "property": "C25",
   "status": "partial",
   "theorems": [
    "C25_ok",
    "C25_ok_accepts",
    "C25_ok3d",
    "C25_ok3d_accepts",
    "C25_uk_partial",
    "C25_uk_accepts",
    "C25_uk3d",
    "C25_uk3d_accepts",
    "C25_uk_wells_wrong"
   ],
   "note": "Proved in full for OrdinaryKriging, OrdinaryKriging3D and UniversalKriging3D, and for UniversalKriging without point_log wells or with unchanged anisotropy (C25_uk_partial). With wells and a changed anisotropy the claim is FALSE of the code (uk.py update_variogram_model does not re-adjust point_log_array): C25_uk_wells_wrong proves the negation on a concrete history."
  },
  {
   "property": "C26",
   "status": "partial",
   "theorems": [
    "C26_ok_model_partial",
    "C26_ok_params_partial",
    "C26_ok3d_model_partial",
    "C26_ok3d_params_partial",
    "C26_uk_model_partial",
    "C26_uk_params_partial",
    "C26_uk3d_model_partial",
    "C26_uk3d_params_partial",
    "C26_wrong_silent",
    "C26_wrong_raises"
   ],
   "note": "FALSE of the code in general: C26_wrong_silent (after a failed update execute returns other numbers) and C26_wrong_raises (execute raises) prove the negation on concrete histories. Proved: after any history a refused model changes nothing later (_model_partial, all four classes); on a newly constructed object malformed parameters with unchanged model and anisotropy change nothing later (_params_partial)."
  },
  {
   "property": "C27",
   "status": "partial",
   "theorems": [
    "C27_nonneg_2d",
    "C27_builtin_2d_partial",
    "C27_fitted_2d_partial",
    "C27_nonneg_3d",
    "C27_builtin_3d_partial",
    "C27_fitted_3d_partial",
    "C27_nonneg_uk",
    "C27_builtin_uk_partial",
    "C27_fitted_uk_partial",
    "C27_nonneg_uk3d",
    "C27_builtin_uk3d_partial",
    "C27_fitted_uk3d_partial",
    "C27_negative_at_duplicate"
   ],
   "note": "C27_nonneg_*: proved in full for exact_values=False and every valid (conditionally negative definite) variogram; C27_builtin_*_partial: for the five built-in families with valid given parameters, C27_fitted_*_partial: with fitted parameters (Euclidean coordinates, hole-effect excluded since it is not a valid model in dimension > 1). The proviso Spec.Clear (with exact_values=True and a nugget, a query within 1e-10 of a datum coincides with it and with no other datum) cannot be dropped: C27_negative_at_duplicate proves that the variance is -c/2 at a duplicated location with nugget c."
  },
  {
   "property": "C28",
   "status": "proved",
   "theorems": [
    "C28_best_2d",
    "C28_best_3d",
    "C28_best_uk",
    "C28_best_uk3d"
   ],
   "note": ""
  },
  {
   "property": "C29",
   "status": "proved",
   "theorems": [
    "C29_execute_2d",
    "C29_create_2d",
    "C29_execute_3d",
    "C29_create_3d",
    "C29_execute_uk",
    "C29_create_uk",
    "C29_execute_uk3d",
    "C29_create_uk3d"
   ],
   "note": ""
  },
  {
   "property": "C30",
   "status": "proved",
   "theorems": [
    "C30_angle",
    "C30_symmetric",
    "C30_zero_iff",
    "C30_self",
    "C30_range",
    "C30_triangle",
    "C30_periodic",
    "C30_turn",
    "C30_antipode",
    "C30_meridian"
   ],
   "note": ""
  },
  {
   "property": "C31",
   "status": "proved",
   "theorems": [
    "C31_ranking",
    "C31_chord",
    "C31_clipped",
    "C31_monotone",
    "C31_window",
    "C31_used"
   ],
   "note": ""
  },
  {
   "property": "C32",
   "status": "proved",
   "theorems": [
    "C32_roundtrip_1",
    "C32_roundtrip_2",
    "C32_small_cells_1",
    "C32_small_cells_2",
    "C32_overflow",
    "C32_refused_keeps_file",
    "C32_accepts",
    "C32_bad_style_empties",
    "C32_single_refused",
    "C32_exact_1",
    "C32_decreasing_lost",
    "C32_which"
   ],
   "note": ""
  },
  {
   "property": "C33",
   "status": "proved",
   "theorems": [
    "C33_any_order",
    "C33_unknown",
    "C33_size",
    "C33_single_refused",
    "C33_meaning_cellsize",
    "C33_meaning_dx_dy"
   ],
   "note": ""
  },
  {
   "property": "C34",
   "status": "partial",
   "theorems": [
    "C34_which",
    "C34_roundtrip",
    "C34_coordSys_lost",
    "C34_truncated_accepted",
    "C34_refused_keeps_file",
    "C34_accepts",
    "C34_single_overwrites",
    "C34_fields_apart",
    "C34_exact"
   ],
   "note": "Round trip, refusals, field layout and overwriting are proved. Two clauses a user would expect are FALSE of the code and proved false: coord_sys written by write_zmap_grid is not what read_zmap_grid returns (C34_coordSys_lost), and a truncated file is read without complaint (C34_truncated_accepted)."
  },
  {
   "property": "C35",
   "status": "proved",
   "theorems": [
    "C35_fit_ordinary",
    "C35_fit_universal",
    "C35_fit_ordinary3d",
    "C35_fit_universal3d",
    "C35_predict_ordinary",
    "C35_predict_universal",
    "C35_predict_ordinary3d",
    "C35_predict_universal3d",
    "C35_method",
    "C35_fit_dimension",
    "C35_predict_dimension",
    "C35_single_scaling_refused",
    "C35_single_angle_refused",
    "C35_predict_keyword",
    "C35_failed_fit_keeps",
    "C35_untrained",
    "C35_refit_forgets",
    "C35_predict_pure",
    "C35_default_needs_ten",
    "C35_specified_refused",
    "C35_exact_plane",
    "C35_exact_space"
   ],
   "note": "Includes three facts a user may not expect: one-element anisotropy tuples (documented for 2D) are always refused, specified drifts cannot be used, and the default window of ten makes predictions from fewer than ten points fail."
  },
  {
   "property": "C36",
   "status": "proved",
   "theorems": [
    "C36_init",
    "C36_fit",
    "C36_sum",
    "C36_raises",
    "C36_exact_plane",
    "C36_exact_space",
    "C36_untrained",
    "C36_failed_fit",
    "C36_default_needs_ten"
   ],
   "note": "For every regression model given as abstract fit/predict functions (predict row by row for the training-point clause). C36_failed_fit: a fit whose kriging part fails leaves the new regression with the old residual model."
  },
  {
   "property": "C37",
   "status": "proved",
   "theorems": [
    "C37_inverse_of",
    "C37_inverse_ilr",
    "C37_inverse_ilr_closed",
    "C37_positive",
    "C37_sum_one",
    "C37_closure",
    "C37_ilr_inverse",
    "C37_scale",
    "C37_isometry",
    "C37_order"
   ],
   "note": ""
  },
  {
   "property": "C38",
   "status": "partial",
   "theorems": [
    "C38_fit",
    "C38_predict",
    "C38_training_plane",
    "C38_training_space",
    "C38_range",
    "C38_no_residual",
    "C38_single_class",
    "C38_one_dimension_refused",
    "C38_untrained",
    "C38_method_checked_late",
    "C38_label_partial",
    "C38_label_wrong"
   ],
   "note": "Proved in full for the position of the class in classes_ (C38_training_plane/space). The claim as stated, that the label is returned, is FALSE of the code unless the labels are 0,1,2,...: C38_label_wrong proves the negation, C38_label_partial the case in which it holds. Also: single class -> no prediction; 1-D targets, as documented, always refused."
  },
  {
   "property": "C39",
   "status": "proved",
   "theorems": [
    "C39_same_2d",
    "C39_same_3d",
    "C39_same_uk",
    "C39_same_uk3d",
    "C39_mean_2d",
    "C39_mean_3d",
    "C39_mean_uk",
    "C39_mean_uk3d",
    "C39_merge_2d",
    "C39_merge_3d",
    "C39_pinv_not_unbiased",
    "C39_create_2d",
    "C39_execute_2d",
    "C39_create_3d",
    "C39_execute_3d",
    "C39_create_uk",
    "C39_execute_uk",
    "C39_create_uk3d",
    "C39_execute_uk3d",
    "C39_merge_uk",
    "C39_merge_uk3d"
   ],
   "note": ""
  },
  {
   "property": "C40",
   "status": "proved",
   "theorems": [
    "C40_style_2d",
    "C40_window_2d",
    "C40_ill_posed_2d",
    "C40_backend_2d",
    "C40_pinv_type_2d",
    "C40_exact_values_2d",
    "C40_model_2d",
    "C40_params_2d",
    "C40_custom_2d",
    "C40_style_3d",
    "C40_ill_posed_3d",
    "C40_backend_3d",
    "C40_window_3d",
    "C40_pinv_type_3d",
    "C40_exact_values_3d",
    "C40_model_3d",
    "C40_params_3d",
    "C40_custom_3d",
    "C40_style_uk",
    "C40_ill_posed_uk",
    "C40_backend_uk",
    "C40_pinv_type_uk",
    "C40_exact_values_uk",
    "C40_model_uk",
    "C40_params_uk",
    "C40_custom_uk",
    "C40_style_uk3d",
    "C40_ill_posed_uk3d",
    "C40_backend_uk3d",
    "C40_pinv_type_uk3d",
    "C40_exact_values_uk3d",
    "C40_model_uk3d",
    "C40_params_uk3d",
    "C40_custom_uk3d",
    "C40_coordinates_type",
    "C40_create_iff_2d",
    "C40_creates_2d",
    "C40_creates_3d",
    "C40_creates_uk",
    "C40_creates_uk3d",
    "C40_execute_iff_2d",
    "C40_execute_iff_3d",
    "C40_execute_iff_uk",
    "C40_execute_iff_uk3d",
    "C40_answers_uk",
    "C40_answers_uk3d"
   ],
   "note": ""
  },
  {
   "property": "C41",
   "status": "partial",
   "theorems": [
    "C41_geographic_partial",
    "C41_mixed_2d_partial",
    "C41_raises_2d",
    "C41_mixed_3d_partial",
    "C41_raises_3d",
    "C41_mixed_uk_partial",
    "C41_raises_uk",
    "C41_mixed_uk3d_partial",
    "C41_raises_uk3d",
    "C41_wrong",
    "C41_raises_wells",
    "C41_no_wells_partial"
   ],
   "note": "FALSE of the code for Euclidean coordinates when all coordinate arrays are integer (C41_raises_*: always refused; C41_wrong: negation on a concrete call). Proved: on the sphere (C41_geographic_partial) and when at least one coordinate array is a float array (C41_mixed_*_partial). Integer wells: C41_raises_wells (UniversalKriging refuses integer point_drift whenever it accepts the equal floats)."
  },
  {
   "property": "C42",
   "status": "partial",
   "theorems": [
    "C42_loop_2d_partial",
    "C42_geographic_partial",
    "C42_loop_3d_partial",
    "C42_C_wrong"
   ],
   "note": "Proved for the Python loop (2D, 3D) and for geographic coordinates with every backend. FALSE of the code for backend 'C' with Euclidean coordinates: C42_C_wrong (unchecked array accesses decide what is returned)."
  },
  {
   "property": "C43",
   "status": "partial",
   "theorems": [
    "C43_loop_raises",
    "C43_wrong",
    "C43_same_partial"
   ],
   "note": "FALSE of the code: C43_loop_raises (the loop never answers at a well), C43_wrong (concrete call which 'vectorized' answers and 'loop' refuses). C43_same_partial: away from the wells the backends agree."
  },
  {
   "property": "C44",
   "status": "partial",
   "theorems": [
    "C44_create",
    "C44_session",
    "C44_execute_harmless",
    "C44_memory_kept",
    "C44_results_new",
    "C44_list_kept_by_reference",
    "C44_list_shared",
    "C44_create_3d",
    "C44_session_3d",
    "C44_execute_harmless_3d",
    "C44_memory_kept_3d",
    "C44_results_new_3d",
    "C44_create_uk",
    "C44_session_uk",
    "C44_execute_harmless_uk",
    "C44_memory_kept_uk",
    "C44_results_new_uk",
    "C44_create_uk3d",
    "C44_session_uk3d",
    "C44_execute_harmless_uk3d",
    "C44_memory_kept_uk3d",
    "C44_results_new_uk3d"
   ],
   "note": "Proved with memory explicit (arrays are references into buffers, Model/Heap*.lean) for all four classes: constructor, update_variogram_model and execute, every interleaving of calls with the caller's own writes and allocations. The claim is FALSE for lists passed as variogram_parameters of the models linear, power and custom: C44_list_kept_by_reference, C44_list_shared. Drift callables are assumed not to write into the arrays they are given, and the list functional_drift itself (of functions, not numbers) is a value in the model."
  },
  {
   "property": "C45",
   "status": "proved",
   "theorems": [
    "C45_unweighted",
    "C45_weighted"
   ],
   "note": ""
  },
  {
   "property": "C46",
   "status": "partial",
   "theorems": [
    "C46_ok_refuses_partial",
    "C46_ok_uses",
    "C46_ok_updates",
    "C46_ok3d_refuses",
    "C46_ok3d_uses",
    "C46_ok3d_updates",
    "C46_uk_refuses_partial",
    "C46_uk_uses",
    "C46_uk_updates",
    "C46_uk3d_refuses",
    "C46_uk3d_uses",
    "C46_uk3d_updates",
    "C46_dimension_four_wrong"
   ],
   "note": "Proved for all classes and also for update_variogram_model, except that the two-dimensional classes only refuse GSTools models of dimension exactly 3: the claim is FALSE of the code for dimension >= 4 (C46_dimension_four_wrong); hence _refuses_partial for OrdinaryKriging and UniversalKriging."
  },
  {
   "property": "C47",
   "status": "proved",
   "theorems": [
    "C47_variogram_2d",
    "C47_variogram_3d",
    "C47_variogram_uk",
    "C47_variogram_uk3d",
    "C47_system_2d",
    "C47_window_2d",
    "C47_system_3d",
    "C47_window_3d",
    "C47_system_uk",
    "C47_system_uk3d",
    "C47_unique_2d",
    "C47_unique_window_2d",
    "C47_unique_3d",
    "C47_unique_window_3d",
    "C47_unique_uk",
    "C47_unique_uk3d"
   ],
   "note": ""
  },
  {
   "property": "C48",
   "status": "proved",
   "theorems": [
    "C48_more_data_2d",
    "C48_window_2d",
    "C48_more_data_3d",
    "C48_window_3d",
    "C48_more_data_uk",
    "C48_more_data_uk3d",
    "C48_more_drift_uk",
    "C48_more_drift_uk3d",
    "C48_ordinary_2d",
    "C48_ordinary_3d"
   ],
   "note": ""
  },
  {
   "property": "C49",
   "status": "proved",
   "theorems": [
    "C49_bound_2d",
    "C49_window_2d",
    "C49_bound_3d",
    "C49_window_3d",
    "C49_builtin"
   ],
   "note": ""
  },
  {
   "property": "C50",
   "status": "proved",
   "theorems": [
    "C50_flat",
    "C50_mean_2d",
    "C50_window_2d",
    "C50_mean_3d",
    "C50_window_3d",
    "C50_trend_uk",
    "C50_trend_uk3d"
   ],
   "note": ""
  },
  {
   "property": "C51",
   "status": "proved",
   "theorems": [
    "C51_points_ok",
    "C51_statistics_ok",
    "C51_disabled_ok",
    "C51_update_ok",
    "C51_statistics_ok3d",
    "C51_update_ok3d",
    "C51_points_uk",
    "C51_statistics_uk",
    "C51_update_uk",
    "C51_statistics_uk3d",
    "C51_update_uk3d"
   ],
   "note": ""
  },
  {
   "property": "C52",
   "status": "proved",
   "theorems": [
    "C52_span_uk",
    "C52_span_uk3d",
    "C52_units_uk",
    "C52_units_uk3d",
    "C52_linear_uk",
    "C52_linear_uk3d"
   ],
   "note": ""
  },
  {
   "property": "C53",
   "status": "proved",
   "theorems": [
    "C53_unit_2d",
    "C53_unit_3d",
    "C53_unit_uk",
    "C53_unit_uk3d"
   ],
   "note": ""
  },
  {
   "property": "C54",
   "status": "proved",
   "theorems": [
    "C54_builtin_continuous",
    "C54_continuous_2d",
    "C54_continuous_3d",
    "C54_external_continuous",
    "C54_continuous_uk",
    "C54_continuous_uk3d"
   ],
   "note": ""
  },
  {
   "property": "C55",
   "status": "proved",
   "theorems": [
    "C55_distance_level",
    "C55_distance_upright",
    "C55_create_level",
    "C55_create_upright",
    "C55_level",
    "C55_upright",
    "C55_distance_level_uk",
    "C55_level_uk"
   ],
   "note": ""
  },
  {
   "property": "C56",
   "status": "proved",
   "theorems": [
    "C56_repeated_2d",
    "C56_repeated_window_2d",
    "C56_repeated_3d",
    "C56_independent_uk",
    "C56_independent_uk3d",
    "C56_iff_uk",
    "C56_iff_uk3d",
    "C56_few_uk",
    "C56_few_uk3d",
    "C56_collinear_uk",
    "C56_coplanar_uk3d"
   ],
   "note": ""
  },
  {
   "property": "C57",
   "status": "proved",
   "theorems": [
    "C57_best",
    "C57_nonneg",
    "C57_fitted",
    "C57_create",
    "C57_execute",
    "C57_opposite_singular",
    "C57_power_negative",
    "C57_gaussian_negative"
   ],
   "note": ""
  },
  {
   "property": "C58",
   "status": "proved",
   "theorems": [
    "C58_score",
    "C58_score_krige",
    "C58_raises",
    "C58_length",
    "C58_single",
    "C58_training_plane",
    "C58_training_space",
    "C58_training_krige_plane",
    "C58_training_krige_space"
   ],
   "note": ""
  },
  {
   "property": "C59",
   "status": "partial",
   "theorems": [
    "C59_score",
    "C59_raises",
    "C59_length",
    "C59_training_plane",
    "C59_training_space",
    "C59_training_partial",
    "C59_label_zero",
    "C59_training_wrong"
   ],
   "note": "The measure itself (C59_score, bounds, raising) is proved in full, and the score on the training data is characterised for every label set (C59_training_plane/space). That it is 1 is proved for the classes 0,1,2,... (C59_training_partial) and FALSE of the code for other labels: C59_label_zero (labels 1..c score 0), C59_training_wrong (concrete witness)."
  },
  {
   "property": "C60",
   "status": "proved",
   "theorems": [
    "C60_line_2d",
    "C60_line_3d",
    "C60_meridian",
    "C60_profile_2d",
    "C60_window_2d",
    "C60_linear_2d",
    "C60_linear_window_2d",
    "C60_profile_3d",
    "C60_window_3d",
    "C60_linear_3d",
    "C60_linear_window_3d"
   ],
   "note": ""
  },
  {
   "property": "C61",
   "status": "proved",
   "theorems": [
    "C61_one_more_2d",
    "C61_one_more_3d",
    "C61_one_more_uk",
    "C61_one_more_uk3d"
   ],
   "note": ""
  },
  {
   "property": "C62",
   "status": "proved",
   "theorems": [
    "C62_dual_2d",
    "C62_dual_3d",
    "C62_dual_uk",
    "C62_dual_uk3d"
   ],
   "note": ""
  },
  {
   "property": "C63",
   "status": "proved",
   "theorems": [
    "C63_far_2d",
    "C63_beyond_2d",
    "C63_far_3d",
    "C63_beyond_3d",
    "C63_far_uk",
    "C63_beyond_uk",
    "C63_far_uk3d",
    "C63_beyond_uk3d",
    "C63_spherical",
    "C63_sill"
   ],
   "note": ""
  },
  {
   "property": "C64",
   "status": "proved",
   "theorems": [
    "C64_builtin",
    "C64_stable_2d",
    "C64_stable_3d",
    "C64_stable_uk",
    "C64_stable_uk3d"
   ],
   "note": ""
  },
  {
   "property": "C65",
   "status": "proved",
   "theorems": [
    "C65_statistics_2d",
    "C65_statistics_3d",
    "C65_statistics_uk",
    "C65_statistics_uk3d"
   ],
   "note": ""
  },
  {
   "property": "C66",
   "status": "proved",
   "theorems": [
    "C66_equal_2d",
    "C66_equal_3d",
    "C66_equal_uk",
    "C66_equal_uk3d",
    "C66_unequal_2d",
    "C66_unequal_3d",
    "C66_unequal_uk",
    "C66_unequal_uk3d",
    "C66_zero_lags"
   ],
   "note": ""
  },
  {
   "property": "C67",
   "status": "proved",
   "theorems": [
    "C67_threads",
    "C67_finishes",
    "C67_results_new",
    "C67_order_irrelevant",
    "C67_alone"
   ],
   "note": ""
  },
  {
   "property": "C68",
   "status": "proved",
   "theorems": [
    "C68_names",
    "C68_latest",
    "C68_constructor",
    "C68_parameters_decide",
    "C68_history",
    "C68_clone",
    "C68_clone_method",
    "C68_search",
    "C68_best",
    "C68_stale",
    "C68_method_unchecked",
    "C68_failed_set"
   ],
   "note": ""
  },
  {
   "property": "C69",
   "status": "proved",
   "theorems": [
    "C69_none",
    "C69_footer",
    "C69_never_misread",
    "C69_unannounced",
    "C69_blank_not_counted"
   ],
   "note": ""
  },
  {
   "property": "C70",
   "status": "proved",
   "theorems": [
    "C70_builtin",
    "C70_fields",
    "C70_combine",
    "C70_error_2d",
    "C70_near_2d",
    "C70_near_window_2d",
    "C70_dense_2d",
    "C70_sharp_2d",
    "C70_error_3d",
    "C70_near_3d",
    "C70_near_window_3d",
    "C70_dense_3d",
    "C70_sharp_3d",
    "C70_error_uk",
    "C70_error_uk3d"
   ],
   "note": ""
  },
  {
   "property": "C71",
   "status": "proved",
   "theorems": [
    "C71_prefix",
    "C71_exact",
    "C71_whole",
    "C71_written",
    "C71_field_missing",
    "C71_cut_number"
   ],
   "note": ""
  },
  {
   "property": "C72",
   "status": "proved",
   "theorems": [
    "C72_layout",
    "C72_numbers",
    "C72_meaning",
    "C72_too_many",
    "C72_not_a_number",
    "C72_blank_ends"
   ],
   "note": ""
  },
  {
   "property": "C73",
   "status": "proved",
   "theorems": [
    "C73_linear",
    "C73_power",
    "C73_exponential",
    "C73_spherical",
    "C73_two_2d",
    "C73_two_window_2d",
    "C73_profile_2d",
    "C73_profile_window_2d",
    "C73_two_3d",
    "C73_two_window_3d",
    "C73_profile_3d",
    "C73_profile_window_3d",
    "C73_range_wrong"
   ],
   "note": ""
  },
  {
   "property": "C74",
   "status": "proved",
   "theorems": [
    "C74_steps",
    "C74_serial",
    "C74_same",
    "C74_torn_wrong",
    "C74_iteration",
    "C74_prefix",
    "C74_steps_3d",
    "C74_serial_3d",
    "C74_same_3d",
    "C74_iteration_3d",
    "C74_prefix_3d",
    "C74_steps_uk",
    "C74_assigned_uk",
    "C74_serial_uk",
    "C74_same_uk",
    "C74_iteration_uk",
    "C74_prefix_uk",
    "C74_steps_uk3d",
    "C74_assigned_uk3d",
    "C74_serial_uk3d",
    "C74_same_uk3d",
    "C74_iteration_uk3d",
    "C74_prefix_uk3d"
   ],
   "note": ""
  },
  {
   "property": "C75",
   "status": "proved",
   "theorems": [
    "C75_rougher_2d",
    "C75_builtin_2d",
    "C75_nugget_2d",
    "C75_rougher_3d",
    "C75_builtin_3d",
    "C75_nugget_3d",
    "C75_rougher_uk",
    "C75_builtin_uk",
    "C75_nugget_uk",
    "C75_rougher_uk3d",
    "C75_builtin_uk3d",
    "C75_nugget_uk3d"
   ],
   "note": ""
  },
  {
   "property": "C76",
   "status": "proved",
   "theorems": [
    "C76_best_ok",
    "C76_exact_ok",
    "C76_line_ok",
    "C76_again_ok",
    "C76_best_ok3",
    "C76_exact_ok3",
    "C76_line_ok3",
    "C76_again_ok3",
    "C76_best_uk",
    "C76_exact_uk",
    "C76_line_uk",
    "C76_again_uk",
    "C76_best_uk3",
    "C76_exact_uk3",
    "C76_line_uk3",
    "C76_again_uk3",
    "C76_unit_ok",
    "C76_unit_answer_ok",
    "C76_unit_ok3",
    "C76_unit_answer_ok3",
    "C76_unit_uk",
    "C76_unit_answer_uk",
    "C76_unit_uk3",
    "C76_unit_answer_uk3",
    "C76_feedback_ok",
    "C76_feedback_ok3",
    "C76_feedback_uk",
    "C76_feedback_uk3",
    "C76_value_unit_false"
   ],
   "note": ""
  },
  {
   "property": "C77",
   "status": "proved",
   "theorems": [
    "C77_numbers_ok",
    "C77_create_ok",
    "C77_all_nan_ok",
    "C77_execute_ok",
    "C77_lags_ok",
    "C77_fit_ok",
    "C77_refused_ok",
    "C77_statistics_ok",
    "C77_window_ok",
    "C77_numbers_ok3",
    "C77_create_ok3",
    "C77_all_nan_ok3",
    "C77_execute_ok3",
    "C77_lags_ok3",
    "C77_fit_ok3",
    "C77_refused_ok3",
    "C77_statistics_ok3",
    "C77_window_ok3",
    "C77_numbers_uk",
    "C77_create_uk",
    "C77_all_nan_uk",
    "C77_execute_uk",
    "C77_lags_uk",
    "C77_fit_uk",
    "C77_refused_uk",
    "C77_statistics_uk",
    "C77_numbers_uk3",
    "C77_create_uk3",
    "C77_all_nan_uk3",
    "C77_execute_uk3",
    "C77_lags_uk3",
    "C77_fit_uk3",
    "C77_refused_uk3",
    "C77_statistics_uk3"
   ],
   "note": ""
  },
  {
   "property": "C78",
   "status": "proved",
   "theorems": [
    "C78_exact_ok",
    "C78_limit_ok",
    "C78_machine_ok",
    "C78_exact_ok3d",
    "C78_limit_ok3d",
    "C78_machine_ok3d",
    "C78_exact_uk",
    "C78_limit_uk",
    "C78_machine_uk",
    "C78_exact_uk3d",
    "C78_limit_uk3d",
    "C78_machine_uk3d"
   ],
   "note": ""
  },
  {
   "property": "C79",
   "status": "partial",
   "theorems": [
    "C79_header_partial",
    "C79_body_partial",
    "C79_size",
    "C79_lines",
    "C79_memory",
    "C79_not_noticed",
    "C79_cut_partial"
   ],
   "note": "What a cut file gives is proved for every point at which it ends (C79_cut_partial; C79_header_partial, C79_size, C79_lines, C79_body_partial for the single cases): refused before the sixth word of the size line, otherwise possibly read with uninitialised memory in the missing cells. The full property is FALSE of the code and proved false: C79_not_noticed; the result depends on uninitialised memory: C79_memory."
  },
  {
   "property": "C80",
   "status": "proved",
   "theorems": [
    "C80_sum_2d",
    "C80_sum_3d",
    "C80_sum_uk",
    "C80_sum_uk3d",
    "C80_mean_2d",
    "C80_mean_3d",
    "C80_mean_uk",
    "C80_mean_uk3d"
   ],
   "note": ""
  },
  {
   "property": "C81",
   "status": "proved",
   "theorems": [
    "C81_asc_cellsize",
    "C81_asc_dx_dy",
    "C81_asc_not_a_number",
    "C81_zmap",
    "C81_zmap_too_many",
    "C81_zmap_not_a_number"
   ],
   "note": ""
  },
  {
   "property": "C82",
   "status": "proved",
   "theorems": [
    "C82_ok",
    "C82_ok3d",
    "C82_uk",
    "C82_uk3d",
    "C82_update_ok",
    "C82_update_ok3d",
    "C82_update_uk",
    "C82_update_uk3d",
    "C82_messages_ok3d",
    "C82_messages_uk",
    "C82_messages_uk3d",
    "C82_messages_update_uk",
    "C82_messages_update_ok3d",
    "C82_messages_update_uk3d",
    "C82_messages_ok",
    "C82_messages_update_ok"
   ],
   "note": ""
  },
  {
   "property": "C83",
   "status": "proved",
   "theorems": [
    "C83_geographic",
    "C83_geographic_update",
    "C83_terms_uk",
    "C83_specified_uk",
    "C83_functional_uk",
    "C83_terms_uk3d",
    "C83_specified_uk3d",
    "C83_functional_uk3d",
    "C83_wells_uk",
    "C83_external_uk",
    "C83_arrays_uk",
    "C83_arrays_uk3d",
    "C83_mask_ok",
    "C83_mask_ok3d",
    "C83_mask_uk",
    "C83_mask_uk3d",
    "C83_function_ok",
    "C83_gstools_ok",
    "C83_function_ok3d",
    "C83_gstools_ok3d",
    "C83_function_uk",
    "C83_gstools_uk",
    "C83_function_uk3d",
    "C83_gstools_uk3d",
    "C83_weight_ok",
    "C83_weight_ok3d",
    "C83_weight_uk",
    "C83_weight_uk3d",
    "C83_function_update_ok",
    "C83_gstools_update_ok",
    "C83_weight_update_ok",
    "C83_function_update_ok3d",
    "C83_gstools_update_ok3d",
    "C83_weight_update_ok3d",
    "C83_function_update_uk",
    "C83_gstools_update_uk",
    "C83_weight_update_uk",
    "C83_function_update_uk3d",
    "C83_gstools_update_uk3d",
    "C83_weight_update_uk3d"
   ],
   "note": ""
  },
  {
   "property": "C84",
   "status": "proved",
   "theorems": [
    "C84_settings_ok",
    "C84_settings_ok3d",
    "C84_settings_uk",
    "C84_settings_uk3d"
   ],
   "note": ""
  }
 ]
}