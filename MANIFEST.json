{
 "claims": [
  {
   "property": "C01",
   "status": "proved",
   "theorems": [
    "Verif.C01_vector_memory_safe",
    "Verif.C01_resize_negative_crashes"
   ],
   "note": ""
  },
  {
   "property": "C02",
   "status": "proved",
   "theorems": [
    "Verif.C02_vector_refines_list",
    "Verif.C02_vector_step"
   ],
   "note": ""
  },
  {
   "property": "C03",
   "status": "proved",
   "theorems": [
    "Verif.C03_flat_index",
    "Verif.C03_matrix_bad_index",
    "Verif.C03_tensor_bad_index",
    "Verif.C03_vector_bad_index"
   ],
   "note": ""
  },
  {
   "property": "C04",
   "status": "proved",
   "theorems": [
    "Verif.C04_erase_multiple_unordered"
   ],
   "note": ""
  },
  {
   "property": "C05",
   "status": "proved",
   "theorems": [
    "Verif.C05_find_first",
    "Verif.C05_find_negative_ub"
   ],
   "note": ""
  },
  {
   "property": "C06",
   "status": "partial",
   "theorems": [
    "Verif.C06_sort",
    "Verif.C06_nan_fails"
   ],
   "note": "C06_sort is the whole property for a total order on the elements (any length, heap-sort fallback included). C06_nan_fails: with NaN the comparison is not an order and the result need not be sorted."
  },
  {
   "property": "C07",
   "status": "proved",
   "theorems": [
    "Verif.C07_ordered_insert_sorted"
   ],
   "note": ""
  },
  {
   "property": "C08",
   "status": "partial",
   "theorems": [
    "Verif.C08_hadamard",
    "Verif.C08_add",
    "Verif.C08_sub",
    "Verif.C08_max",
    "Verif.C08_min",
    "Verif.C08_scalar_multiply",
    "Verif.C08_scalar_add",
    "Verif.C08_division_partial",
    "Verif.C08_division_inplace_fails"
   ],
   "note": "All operations and variants proved except the in-place division_element_wise, which writes through a null pointer of a fresh vector (C08_division_inplace_fails)."
  },
  {
   "property": "C09",
   "status": "partial",
   "theorems": [
    "Verif.C09_diagonal_zeroed_null_fails",
    "Verif.C09_matrix_rejects",
    "Verif.C09_matrix_mult_rejects",
    "Verif.C09_mult_vec_accepts_short_fails",
    "Verif.C09_tensor_rejects",
    "Verif.C09_vector_rejects",
    "Verif.C09_vector_division_rejects",
    "Verif.C09_vector_reductions_reject",
    "Verif.C09_null_operand_fails"
   ],
   "note": "Rejection proved for all methods that check; the methods that do not check (diagonal_zeroed, scalar_multiplyb, cross ..., mult_vec with a short vector) are refuted by the _fails theorems."
  },
  {
   "property": "C10",
   "status": "partial",
   "theorems": [
    "Verif.C10_functions",
    "Verif.C10_exponentiate",
    "Verif.C10_cbrt",
    "Verif.C10_abs",
    "Verif.C10_cos_partial",
    "Verif.C10_cos_inplace_fails"
   ],
   "note": "All functions and variants proved except in-place cos, which computes sqrt (C10_cos_inplace_fails)."
  },
  {
   "property": "C11",
   "status": "proved",
   "theorems": [
    "Verif.C11_matrix_duplicate_independent",
    "Verif.C11_tensor_duplicate_independent",
    "Verif.C11_vector_duplicate_independent"
   ],
   "note": ""
  },
  {
   "property": "C12",
   "status": "proved",
   "theorems": [
    "Verif.C12_reductions_values",
    "Verif.C12_cauchy_schwarz",
    "Verif.C12_distance_metric"
   ],
   "note": ""
  },
  {
   "property": "C13",
   "status": "partial",
   "theorems": [
    "Verif.C13_extrema",
    "Verif.C13_empty",
    "Verif.C13_all_neg_inf_fails"
   ],
   "note": "Proved for vectors with at least one value above -inf; with only -inf the index is -1 (C13_all_neg_inf_fails)."
  },
  {
   "property": "C14",
   "status": "proved",
   "theorems": [
    "Verif.C14_cross"
   ],
   "note": ""
  },
  {
   "property": "C15",
   "status": "proved",
   "theorems": [
    "Verif.C15_matrix_data_round_trip",
    "Verif.C15_tensor_data_round_trip",
    "Verif.C15_vector_data_round_trip",
    "Verif.C15_vector_round_trip_vector"
   ],
   "note": ""
  },
  {
   "property": "C16",
   "status": "proved",
   "theorems": [
    "Verif.C16_matrix_is_equal_approx",
    "Verif.C16_tensor_is_equal_approx",
    "Verif.C16_is_equal_approx",
    "Verif.C16_reflexive_symmetric"
   ],
   "note": ""
  },
  {
   "property": "C17",
   "status": "proved",
   "theorems": [
    "Verif.C17_matrix_index",
    "Verif.C17_matrix_cells"
   ],
   "note": ""
  },
  {
   "property": "C18",
   "status": "proved",
   "theorems": [
    "Verif.C18_matrix_is_list_of_rows",
    "Verif.C18_matrix_row_step",
    "Verif.C18_row_get_mlpp_vector",
    "Verif.C18_ragged_rows_uninitialised",
    "Verif.C18_row_add_after_zero_width",
    "Verif.C18_reset_keeps_width"
   ],
   "note": ""
  },
  {
   "property": "C19",
   "status": "partial",
   "theorems": [
    "Verif.C19_multn",
    "Verif.C19_multb_partial",
    "Verif.C19_mult_partial",
    "Verif.C19_mult_self_fails",
    "Verif.C19_multb_aliased_fails"
   ],
   "note": "multn proved in full; mult and multb proved when the target is not an operand; under aliasing the code zeroes the operand first (the _fails theorems)."
  },
  {
   "property": "C20",
   "status": "partial",
   "theorems": [
    "Verif.C20_transpose",
    "Verif.C20_transposen",
    "Verif.C20_transposeb_partial",
    "Verif.C20_transpose_twice",
    "Verif.C20_transposeb_aliased_fails"
   ],
   "note": "Aliased transposeb is wrong in the code (C20_transposeb_aliased_fails); everything else proved."
  },
  {
   "property": "C21",
   "status": "partial",
   "theorems": [
    "Verif.C21_det_partial",
    "Verif.C21_det_one_by_one_fails"
   ],
   "note": "Proved for every n >= 2; for 1x1 the code returns 0 (C21_det_one_by_one_fails)."
  },
  {
   "property": "C22",
   "status": "partial",
   "theorems": [
    "Verif.C22_adjoint",
    "Verif.C22_inverse_partial",
    "Verif.C22_inverse_one_by_one_fails"
   ],
   "note": "adjoint in full; inverse for n >= 2; 1x1 inverse is wrong in the code (divides by 0)."
  },
  {
   "property": "C23",
   "status": "partial",
   "theorems": [
    "Verif.C23_solve_partial",
    "Verif.C23_one_by_one_fails"
   ],
   "note": "Proved for n >= 2; 1x1 inherits the inverse failure of C22."
  },
  {
   "property": "C24",
   "status": "partial",
   "theorems": [
    "Verif.C24_powern_nonneg",
    "Verif.C24_powern_neg_partial",
    "Verif.C24_powern_neg_one_by_one_fails"
   ],
   "note": "n >= 0 in full; negative powers for matrices of size >= 2 (1x1 inherits C22)."
  },
  {
   "property": "C25",
   "status": "partial",
   "theorems": [
    "Verif.C25_kronecker_productn",
    "Verif.C25_kronecker_productb_partial",
    "Verif.C25_kronecker_product_partial",
    "Verif.C25_kronecker_product_fails",
    "Verif.C25_kronecker_productb_aliased_fails",
    "Verif.C25_kronecker_null"
   ],
   "note": "kronecker_productn in full; b variant when not aliased; the in-place variant accesses memory outside the result for non-trivial shapes (C25_kronecker_product_fails)."
  },
  {
   "property": "C26",
   "status": "proved",
   "theorems": [
    "Verif.C26_constant_vectors",
    "Verif.C26_vector_diag",
    "Verif.C26_identity_mat",
    "Verif.C26_identity_neutral",
    "Verif.C26_identity",
    "Verif.C26_constant",
    "Verif.C26_trace",
    "Verif.C26_diagonal",
    "Verif.C26_diagonal_null",
    "Verif.C26_diagonal_square"
   ],
   "note": ""
  },
  {
   "property": "C27",
   "status": "partial",
   "theorems": [
    "Verif.C27_pinverse_nonsquare_fails",
    "Verif.C27_pinverse_square",
    "Verif.C27_pinverse_symmetric_partial",
    "Verif.C27_pinverse_nonsymmetric_fails"
   ],
   "note": "The code forms A*A instead of transpose(A)*A: proved what it computes for square A, left inverse for symmetric A, refuted for the rest."
  },
  {
   "property": "C28",
   "status": "partial",
   "theorems": [
    "Verif.C28_rotation_partial",
    "Verif.C28_rotaten_preserves_length_partial",
    "Verif.C28_axis_z_fails",
    "Verif.C28_axis_none_fails",
    "Verif.C28_rotate_preserves_length_partial",
    "Verif.C28_rotateb_preserves_length_partial"
   ],
   "note": "Axes 0 and 1 proved; axis 2 and axis -1 are not rotations in the code."
  },
  {
   "property": "C29",
   "status": "partial",
   "theorems": [
    "Verif.C29_cov_square_partial",
    "Verif.C29_cov_tall_partial",
    "Verif.C29_cov_wide_fails",
    "Verif.C29_covMatrix_symm"
   ],
   "note": "Square matrices in full; for more rows than columns the result is cut to the number of columns (C29_cov_tall_partial); for more columns than rows the code uses rows that do not exist (C29_cov_wide_fails)."
  },
  {
   "property": "C30",
   "status": "proved",
   "theorems": [
    "Verif.C30_subtract_matrix_rowsb",
    "Verif.C30_mult_vec",
    "Verif.C30_mult_veco",
    "Verif.C30_add_vec",
    "Verif.C30_outer_product",
    "Verif.C30_flatten",
    "Verif.C30_flatteno"
   ],
   "note": ""
  },
  {
   "property": "C31",
   "status": "partial",
   "theorems": [
    "Verif.C31_matrix_binary",
    "Verif.C31_matrix_functions",
    "Verif.C31_matrix_exponentiate",
    "Verif.C31_matrix_cbrt",
    "Verif.C31_matrix_abs",
    "Verif.C31_matrix_scalar_partial",
    "Verif.C31_scalar_b_fails",
    "Verif.C31_tensor_binary",
    "Verif.C31_tensor_functions",
    "Verif.C31_tensor_scalar_partial",
    "Verif.C31_tensor_scalar_b_fails"
   ],
   "note": "scalar_multiplyb / scalar_addb ignore their matrix operand (refuted); all other variants proved."
  },
  {
   "property": "C32",
   "status": "proved",
   "theorems": [
    "Verif.C32_tensor_index",
    "Verif.C32_tensor_cells"
   ],
   "note": ""
  },
  {
   "property": "C33",
   "status": "partial",
   "theorems": [
    "Verif.C33_tensor_is_list_of_slices_partial",
    "Verif.C33_tensor_slice_step_partial",
    "Verif.C33_remove_unordered_fails",
    "Verif.C33_get_into_null_fails",
    "Verif.C33_z_slice_get_new"
   ],
   "note": "All slice operations except z_slice_remove_unordered (reads outside the tensor) and the null get_into; both refuted."
  },
  {
   "property": "C34",
   "status": "partial",
   "theorems": [
    "Verif.C34_row_get_partial",
    "Verif.C34_row_get_vector_fails",
    "Verif.C34_row_set_get"
   ],
   "note": "row_get_vector ignores z (refuted)."
  },
  {
   "property": "C35",
   "status": "partial",
   "theorems": [
    "Verif.C35_slices_partial",
    "Verif.C35_slices_actual_partial",
    "Verif.C35_round_trip_partial",
    "Verif.C35_x_slice_get_fails",
    "Verif.C35_x_slice_set_fails",
    "Verif.C35_y_slice_get_fails",
    "Verif.C35_y_slice_set_fails"
   ],
   "note": "The code swaps the x and y coordinates: proved exactly what it computes (C35_slices_actual_partial), the property for slices symmetric in x,y, the set/get round trip for square slices; refuted in general."
  },
  {
   "property": "C36",
   "status": "proved",
   "theorems": [
    "Verif.C36_mean",
    "Verif.C36_weighted_mean",
    "Verif.C36_variance",
    "Verif.C36_variance_translation",
    "Verif.C36_covariance",
    "Verif.C36_null"
   ],
   "note": ""
  },
  {
   "property": "C37",
   "status": "partial",
   "theorems": [
    "Verif.C37_median_even_partial",
    "Verif.C37_median_odd_fails"
   ],
   "note": "Even length proved; odd length: the code returns the wrong order statistic (refuted for every odd length: 0 for one element, not a median when the elements are distinct)."
  },
  {
   "property": "C38",
   "status": "partial",
   "theorems": [
    "Verif.C38_range",
    "Verif.C38_midrange_fails"
   ],
   "note": "range proved; midrange computes range/2 (refuted)."
  },
  {
   "property": "C39",
   "status": "partial",
   "theorems": [
    "Verif.C39_mode",
    "Verif.C39_mode_empty_fails"
   ],
   "note": "Non-empty proved; on an empty vector the code reads outside the array (refuted, outside the stated domain)."
  },
  {
   "property": "C40",
   "status": "proved",
   "theorems": [
    "Verif.C40_correlation"
   ],
   "note": ""
  },
  {
   "property": "C41",
   "status": "proved",
   "theorems": [
    "Verif.C41_least_squares"
   ],
   "note": ""
  },
  {
   "property": "C42",
   "status": "partial",
   "theorems": [
    "Verif.C42_geometric_mean",
    "Verif.C42_harmonic_mean",
    "Verif.C42_rms",
    "Verif.C42_power_mean",
    "Verif.C42_weighted_lehmer_mean",
    "Verif.C42_lehmer_mean",
    "Verif.C42_heronian_mean",
    "Verif.C42_heinz_mean",
    "Verif.C42_log_mean",
    "Verif.C42_identric_mean",
    "Verif.C42_stolarsky_mean",
    "Verif.C42_pair_means_values",
    "Verif.C42_neuman_sandor_fails"
   ],
   "note": "All means proved except neuman_sandor_mean, which multiplies instead of dividing (refuted)."
  },
  {
   "property": "C43",
   "status": "partial",
   "theorems": [
    "Verif.C43_derivr_partial",
    "Verif.C43_leaky_relu_partial",
    "Verif.C43_elu",
    "Verif.C43_gelu_partial",
    "Verif.C43_selu_partial",
    "Verif.C43_run_deriv_real_fails",
    "Verif.C43_run_deriv_real_wrong_fails",
    "Verif.C43_leaky_relu_fails",
    "Verif.C43_selu_fails",
    "Verif.C43_gelu_fails",
    "Verif.C43_softmax_fails",
    "Verif.C43_mish_zero",
    "Verif.C43_mish_fails",
    "Verif.C43_arsech_fails",
    "Verif.C43_arsech_partial"
   ],
   "note": "Every scalar derivative proved except those where the code is wrong: run_activation_deriv_real (evaluates the activation), leaky_relu for c > 1, selu (lambda dropped), gelu (rounded constants), mish at 0, arsech (missing square root), each refuted."
  },
  {
   "property": "C44",
   "status": "partial",
   "theorems": [
    "Verif.C44_softmax",
    "Verif.C44_softmax_probability",
    "Verif.C44_softmax_shift",
    "Verif.C44_softmax_rows",
    "Verif.C44_adj_softmax_partial",
    "Verif.C44_adj_softmax_rows_partial",
    "Verif.C44_adj_softmax_fails",
    "Verif.C44_adj_softmax_deriv_partial",
    "Verif.C44_jacobian",
    "Verif.C44_jacobian_deriv",
    "Verif.C44_softmax_deriv_fails",
    "Verif.C44_softmax_derivm_fails",
    "Verif.C44_jacobians_partial",
    "Verif.C44_jacobians_fails"
   ],
   "note": "softmax proved in full; adj_softmax proved unless the integer conversion of the maximum overflows (refuted there); Jacobian: softmax_deriv_normv proved, softmax_derivv refuted (returns softmax), softmax_derivm recurses forever. softmax_deriv_normm and softmax_deriv_derivm: what they compute is stated (C44_jacobians_partial), and that it is no Jacobian (C44_jacobians_fails)."
  },
  {
   "property": "C45",
   "status": "partial",
   "theorems": [
    "Verif.C45_norm_vector",
    "Verif.C45_norm_matrix_partial",
    "Verif.C45_deriv_vector_partial",
    "Verif.C45_deriv_matrix_partial",
    "Verif.C45_leaky_relu",
    "Verif.C45_elu",
    "Verif.C45_selu",
    "Verif.C45_activationr",
    "Verif.C45_softplus_normm_fails",
    "Verif.C45_softsign_normm_fails",
    "Verif.C45_softsign_derivm_fails",
    "Verif.C45_swish_normm_fails",
    "Verif.C45_swish_derivm_fails",
    "Verif.C45_artanh_derivm_fails",
    "Verif.C45_arcsch_derivv_fails",
    "Verif.C45_mish_normm_fails",
    "Verif.C45_mish_derivm_fails",
    "Verif.C45_cloglog_derivv_fails",
    "Verif.C45_cloglog_derivm_fails",
    "Verif.C45_cloglog_differ_fails"
   ],
   "note": "Every activation whose vector/matrix version is not broken proved at all shapes; broken ones refuted one by one."
  },
  {
   "property": "C46",
   "status": "proved",
   "theorems": [
    "Verif.C46_flatten",
    "Verif.C46_flatteno",
    "Verif.C46_tensor_vec_mult"
   ],
   "note": ""
  },
  {
   "property": "C47",
   "status": "partial",
   "theorems": [
    "Verif.C47_set_from_matrices_partial",
    "Verif.C47_set_from_vectors_partial",
    "Verif.C47_set_from_matrix",
    "Verif.C47_ragged_fails"
   ],
   "note": "Proved for lists of equal length / shape; with ragged input the tensor contains uninitialised cells (refuted)."
  },
  {
   "property": "C48",
   "status": "proved",
   "theorems": [
    "Verif.C48_chebyshev",
    "Verif.C48_abs_avg_deviation"
   ],
   "note": ""
  },
  {
   "property": "C49",
   "status": "partial",
   "theorems": [
    "Verif.C49_vector_fails",
    "Verif.C49_matrix_fails",
    "Verif.C49_real_fails",
    "Verif.C49_linear_fails",
    "Verif.C49_vector_partial"
   ],
   "note": "The flag is inverted in the code: refuted for every activation; C49_vector_partial says what it does compute."
  },
  {
   "property": "C50",
   "status": "partial",
   "theorems": [
    "Verif.C50_cbrt",
    "Verif.C50_matrix2",
    "Verif.C50_vector2",
    "Verif.C50_matrix1",
    "Verif.C50_vector1",
    "Verif.C50_scalar_matrix_partial",
    "Verif.C50_scalar_matrix_null_fails",
    "Verif.C50_maxnvv",
    "Verif.C50_maxnm_partial",
    "Verif.C50_maxnm_fails",
    "Verif.C50_full_matrix",
    "Verif.C50_constants",
    "Verif.C50_into2",
    "Verif.C50_into1",
    "Verif.C50_into_rejects"
   ],
   "note": "Everything proved except: scalar_*nm with a null matrix is undefined behaviour; maxnm does not compare shapes (refuted)."
  },
  {
   "property": "C51",
   "status": "partial",
   "theorems": [
    "Verif.C51_products",
    "Verif.C51_matmult_rejects",
    "Verif.C51_kronecker",
    "Verif.C51_vectors",
    "Verif.C51_mat_vec_multnv_fails",
    "Verif.C51_identity_flatten",
    "Verif.C51_subtract_rows"
   ],
   "note": "All in full except mat_vec_multnv with a short vector, which the code accepts (C51_mat_vec_multnv_fails)."
  },
  {
   "property": "C52",
   "status": "partial",
   "theorems": [
    "Verif.C52_detm_partial",
    "Verif.C52_detm_one_by_one_fails",
    "Verif.C52_adjoint",
    "Verif.C52_inverse_solve_partial",
    "Verif.C52_pinverse_partial",
    "Verif.C52_pinverse_least_squares",
    "Verif.C52_linear_independence_partial",
    "Verif.C52_linear_independence_fails"
   ],
   "note": "n >= 2; 1x1 refuted."
  },
  {
   "property": "C53",
   "status": "proved",
   "theorems": [
    "Verif.C53_gram_schmidt",
    "Verif.C53_qrd"
   ],
   "note": ""
  },
  {
   "property": "C54",
   "status": "proved",
   "theorems": [
    "Verif.C54_cholesky",
    "Verif.C54_cholesky_rejects"
   ],
   "note": ""
  },
  {
   "property": "C55",
   "status": "partial",
   "theorems": [
    "Verif.C55_sums",
    "Verif.C55_rejects",
    "Verif.C55_null_fails",
    "Verif.C55_extrema"
   ],
   "note": "Everything except null operands of dotnv and sum_elementsv, which are dereferenced (C55_null_fails)."
  },
  {
   "property": "C56",
   "status": "partial",
   "theorems": [
    "Verif.C56_lists1",
    "Verif.C56_lists2",
    "Verif.C56_resizencvt",
    "Verif.C56_absnvt_fails",
    "Verif.C56_short_list_fails"
   ],
   "note": "All functions except absnvt (returns its argument) and lists of different lengths (crash), both refuted."
  },
  {
   "property": "C57",
   "status": "partial",
   "theorems": [
    "Verif.C57_regression",
    "Verif.C57_classification",
    "Verif.C57_huber",
    "Verif.C57_matrix",
    "Verif.C57_mse_partial",
    "Verif.C57_mse_fails",
    "Verif.C57_rmsem_partial",
    "Verif.C57_rmsem_fails",
    "Verif.C57_mismatch",
    "Verif.C57_mismatch_matrix",
    "Verif.C57_shape_fails",
    "Verif.C57_null_fails",
    "Verif.C57_hinge_weights",
    "Verif.C57_hinge_weights_matrix_fails"
   ],
   "note": "All losses except msev/msem (wrong factor), rmsem (divides by rows), hinge_losswm (always undefined), null operands; these are refuted."
  },
  {
   "property": "C58",
   "status": "partial",
   "theorems": [
    "Verif.C58_mse",
    "Verif.C58_log_loss",
    "Verif.C58_cross_entropy",
    "Verif.C58_hinge",
    "Verif.C58_hinge_subgradient",
    "Verif.C58_hinge_scaled",
    "Verif.C58_wasserstein",
    "Verif.C58_rmse",
    "Verif.C58_mbe",
    "Verif.C58_mbem_partial",
    "Verif.C58_mbem_fails",
    "Verif.C58_mae_partial",
    "Verif.C58_mae_fails",
    "Verif.C58_mae_range_fails",
    "Verif.C58_huber_partial",
    "Verif.C58_huber_fails",
    "Verif.C58_rmsem_fails",
    "Verif.C58_svm",
    "Verif.C58_svm_deriv",
    "Verif.C58_mismatch",
    "Verif.C58_mismatch_fails"
   ],
   "note": "mse, rmse (vectors), log loss, cross entropy, hinge, Wasserstein, mbe (vectors) in full; mae and Huber only where the code's sign is right, mbe for square matrices; the rest refuted."
  },
  {
   "property": "C59",
   "status": "proved",
   "theorems": [
    "Verif.C59_norm_vector",
    "Verif.C59_norm_matrix",
    "Verif.C59_deriv_vector",
    "Verif.C59_deriv_matrix"
   ],
   "note": ""
  },
  {
   "property": "C60",
   "status": "partial",
   "theorems": [
    "Verif.C60_term",
    "Verif.C60_term_matrix",
    "Verif.C60_deriv",
    "Verif.C60_deriv_matrix",
    "Verif.C60_lasso_subgradient",
    "Verif.C60_weights",
    "Verif.C60_weights_matrix",
    "Verif.C60_clipping",
    "Verif.C60_null_fails"
   ],
   "note": "Everything except null weights (C60_null_fails)."
  },
  {
   "property": "C61",
   "status": "partial",
   "theorems": [
    "Verif.Utilities.C61_list",
    "Verif.Utilities.C61_pairs",
    "Verif.Utilities.C61_nonpositive_fails",
    "Verif.Utilities.C61_mv_inputs_partial",
    "Verif.Utilities.C61_outputs_fails",
    "Verif.Utilities.C61_m_square_partial",
    "Verif.Utilities.C61_mm_square_partial",
    "Verif.Utilities.C61_overlap_fails"
   ],
   "note": "Lists in full for positive k. Matrices: inputs of create_mini_batchesmv in full; create_mini_batchesm/mm only when the number of batches equals their size; outputs of mv and other sizes refuted. The matrix versions drop the last n%k rows."
  },
  {
   "property": "C62",
   "status": "proved",
   "theorems": [
    "Verif.Utilities.C62_vec",
    "Verif.Utilities.C62_mat",
    "Verif.Utilities.C62_list",
    "Verif.Utilities.C62_nested",
    "Verif.Utilities.C62_pool",
    "Verif.Utilities.C62_null",
    "Verif.Utilities.C62_range"
   ],
   "note": "Labels below 99999 in absolute value for the approximate comparison of performance_vec and performance_mat; any integer label for the others."
  },
  {
   "property": "C63",
   "status": "partial",
   "theorems": [
    "Verif.Utilities.C63_counts",
    "Verif.Utilities.C63_total",
    "Verif.Utilities.C63_precision_recall",
    "Verif.Utilities.C63_accuracy",
    "Verif.Utilities.C63_f1",
    "Verif.Utilities.C63_short_fails"
   ],
   "note": "For lists of equal length; a shorter label list is undefined behaviour (C63_short_fails)."
  },
  {
   "property": "C64",
   "status": "partial",
   "theorems": [
    "Verif.Utilities.C64_vector",
    "Verif.Utilities.C64_bounds",
    "Verif.Utilities.C64_matrix_partial",
    "Verif.Utilities.C64_matrix_zero_fails",
    "Verif.Utilities.C64_matrix_normal_fails",
    "Verif.Utilities.C64_list_partial",
    "Verif.Utilities.C64_list_zero_fails",
    "Verif.Utilities.C64_bias",
    "Verif.Utilities.C64_bias_vector_fails",
    "Verif.Utilities.C64_null"
   ],
   "note": "Vectors in full. Matrices and std::vectors: default and uniform kinds; the others are refuted because of integer division. bias_initializationv does nothing (refuted)."
  },
  {
   "property": "C65",
   "status": "partial",
   "theorems": [
    "Verif.Text.C65_segment_partial",
    "Verif.Text.C65_segment_fails",
    "Verif.Text.C65_no_space"
   ],
   "note": "For texts in which every punctuation mark is followed by a space or ends the text; otherwise refuted."
  },
  {
   "property": "C66",
   "status": "proved",
   "theorems": [
    "Verif.Text.C66_rank",
    "Verif.Text.C66_tokens"
   ],
   "note": ""
  },
  {
   "property": "C67",
   "status": "partial",
   "theorems": [
    "Verif.Text.C67_spaces",
    "Verif.Text.C67_empty_partial",
    "Verif.Text.C67_empty_fails"
   ],
   "note": "remove_spaces in full; remove_empty if no two empty strings are adjacent, otherwise refuted."
  },
  {
   "property": "C68",
   "status": "partial",
   "theorems": [
    "Verif.Text.C68_text",
    "Verif.Text.C68_vec_partial",
    "Verif.Text.C68_vec_fails"
   ],
   "note": "remove_stop_words in full; remove_stop_words_vec if the first word is no stop word; otherwise the program stops (refuted)."
  },
  {
   "property": "C69",
   "status": "partial",
   "theorems": [
    "Verif.Data.C69_vector",
    "Verif.Text.C69_set",
    "Verif.Text.C69_sentences_fails"
   ],
   "note": "vec_to_set in full; split_sentences refuted."
  },
  {
   "property": "C70",
   "status": "proved",
   "theorems": [
    "Verif.Text.C70_words",
    "Verif.Text.C70_bag"
   ],
   "note": "For a lower-casing that leaves the space alone (String::to_lower does); the characters' conversion table is a parameter."
  },
  {
   "property": "C71",
   "status": "partial",
   "theorems": [
    "Verif.Data.C71_junk_partial",
    "Verif.Data.C71_tfidf_partial",
    "Verif.Data.C71_tfidf_fails"
   ],
   "note": "Exact result including the uninitialised memory; the tf-idf numbers if that memory is zero; refuted otherwise. Sentences without words divide by zero (0 in the model)."
  },
  {
   "property": "C72",
   "status": "proved",
   "theorems": [
    "Verif.Data.C72_shuffle",
    "Verif.Data.C72_split"
   ],
   "note": "The random numbers are arbitrary; that they are random is not a property of this code."
  },
  {
   "property": "C73",
   "status": "partial",
   "theorems": [
    "Verif.Data.C73_one_hot",
    "Verif.Data.C73_fraction",
    "Verif.Data.C73_null",
    "Verif.Data.C73_reverse_fails"
   ],
   "note": "one_hot_rep in full; reverseOneHot is off by one (refuted as an inverse)."
  },
  {
   "property": "C74",
   "status": "proved",
   "theorems": [
    "Verif.Data.C74_scaling",
    "Verif.Data.C74_unit",
    "Verif.Data.C74_centering",
    "Verif.Data.C74_centred",
    "Verif.Data.C74_normalization",
    "Verif.Data.C74_variance"
   ],
   "note": ""
  },
  {
   "property": "C75",
   "status": "proved",
   "theorems": [
    "Verif.Csv.C75_line",
    "Verif.Csv.C75_file",
    "Verif.Csv.C75_stored"
   ],
   "note": ""
  },
  {
   "property": "C76",
   "status": "partial",
   "theorems": [
    "Verif.Data.C76_supervised_partial",
    "Verif.Data.C76_newline_fails",
    "Verif.Data.C76_null",
    "Verif.Data.C76_unsupervised_fails",
    "Verif.Data.C76_simple_partial",
    "Verif.Data.C76_load_partial",
    "Verif.Data.C76_classes_partial"
   ],
   "note": "For files whose last line has no line break, every line with enough fields; with a final line break refuted (crash); unsupervised refuted (transposed)."
  },
  {
   "property": "C77",
   "status": "partial",
   "theorems": [
    "Verif.C77_num_diffr",
    "Verif.C77_num_diff_2r",
    "Verif.C77_num_diff_3r",
    "Verif.C77_exact",
    "Verif.C77_linear_approximationr",
    "Verif.C77_quadratic_approximationr",
    "Verif.C77_cubic_approximationr_fails",
    "Verif.C77_cubic_wrong_fails"
   ],
   "note": "All numerical derivatives, the linear and the quadratic approximation in full; the cubic term is never added (refuted)."
  },
  {
   "property": "C78",
   "status": "proved",
   "theorems": [
    "Verif.C78_jacobian",
    "Verif.C78_jacobian_affine",
    "Verif.C78_hessian",
    "Verif.C78_hessian_quadratic",
    "Verif.C78_third_order",
    "Verif.C78_laplacian",
    "Verif.C78_bad_axis"
   ],
   "note": ""
  },
  {
   "property": "C79",
   "status": "proved",
   "theorems": [
    "Verif.C79_newton_converges",
    "Verif.C79_root_is_fixed",
    "Verif.C79_affine_exact",
    "Verif.C79_inverse_quadratic",
    "Verif.C79_inverse_quadratic_edge"
   ],
   "note": "Over the reals; different function values are assumed for inverse quadratic interpolation (otherwise the code divides by zero). Halley's method: fixed points and degree one only."
  },
  {
   "property": "C80",
   "status": "proved",
   "theorems": [
    "Verif.C80_eulerv_polygon",
    "Verif.C80_eulerr_sum",
    "Verif.C80_euler_range",
    "Verif.C80_eulerr_error",
    "Verif.C80_eulerv_error",
    "Verif.C80_growth"
   ],
   "note": ""
  },
  {
   "property": "C81",
   "status": "partial",
   "theorems": [
    "Verif.C81_constant",
    "Verif.C81_linear_partial",
    "Verif.C81_linear_fails",
    "Verif.C81_quadratic_term",
    "Verif.C81_cubic_fails",
    "Verif.C81_second_derivative_test",
    "Verif.C81_many_variables_fails"
   ],
   "note": "Linear term refuted for two or more variables, cubic term refuted; quadratic term and the second derivative test in full (two variables; for more variables the answer the code gives is stated)."
  },
  {
   "property": "C82",
   "status": "proved",
   "theorems": [
    "Verif.UniLinReg.C82_least_squares",
    "Verif.UniLinReg.C82_exact",
    "Verif.UniLinReg.C82_set_test",
    "Verif.UniLinReg.C82_null"
   ],
   "note": "Over the reals."
  },
  {
   "property": "C83",
   "status": "proved",
   "theorems": [
    "Verif.OutlierFinder.C83_model_test",
    "Verif.OutlierFinder.C83_few",
    "Verif.OutlierFinder.C83_set_test",
    "Verif.OutlierFinder.C83_indices",
    "Verif.OutlierFinder.C83_null"
   ],
   "note": "Over the reals. For constant data the code computes 0/0 = NaN and reports nothing; the model computes 0 and reports nothing."
  },
  {
   "property": "C84",
   "status": "partial",
   "theorems": [
    "Verif.KNN.C84_neighbours_partial",
    "Verif.KNN.C84_fails",
    "Verif.KNN.C84_null"
   ],
   "note": "Order and minimality in full; the number of neighbours is refuted in general and given exactly."
  },
  {
   "property": "C85",
   "status": "partial",
   "theorems": [
    "Verif.KNN.C85_votes",
    "Verif.KNN.C85_majority_fails",
    "Verif.KNN.C85_model"
   ],
   "note": "The majority vote is refuted; what is computed instead is stated and proved, as are model_set_test and score relative to model_test. Outputs outside the range of int are excluded (undefined conversion)."
  },
  {
   "property": "C86",
   "status": "partial",
   "theorems": [
    "Verif.C86_lin_reg",
    "Verif.C86_log_reg",
    "Verif.C86_tanh_reg",
    "Verif.C86_probit_reg",
    "Verif.C86_cloglog_reg",
    "Verif.C86_uninitialized",
    "Verif.C86_missing_data",
    "Verif.C86_tanh_set_output_set_fails",
    "Verif.C86_tanh_get_output_set_fails",
    "Verif.C86_create",
    "Verif.C86_initialize_fails",
    "Verif.C86_score",
    "Verif.C86_create_z"
   ],
   "note": "Over the reals. Proved for all five models; the accessors of the outputs of MLPPTanhReg are refuted."
  },
  {
   "property": "C87",
   "status": "partial",
   "theorems": [
    "Verif.C87_lin_reg",
    "Verif.C87_log_reg",
    "Verif.C87_log_reg_mle",
    "Verif.C87_tanh_reg",
    "Verif.C87_probit_reg",
    "Verif.C87_probit_reg_mle",
    "Verif.C87_lin_reg_converges",
    "Verif.C87_log_reg_converges",
    "Verif.C87_cloglog_fails",
    "Verif.C87_cloglog_mle_fails"
   ],
   "note": "Over the reals. Linear, logistic, tanh and probit in full, convergence for linear and logistic regression; complementary log-log is refuted."
  },
  {
   "property": "C88",
   "status": "partial",
   "theorems": [
    "Verif.C88_newton_raphson_partial",
    "Verif.C88_full_step_partial",
    "Verif.C88_step_size_fails"
   ],
   "note": "What the code does is proved to be a Newton step divided by the number of samples; the full step is reached for a learning rate equal to the number of samples. For at least two weights (the modelled inverse needs two or more)."
  },
  {
   "property": "C89",
   "status": "partial",
   "theorems": [
    "Verif.C89_normal_equation_partial",
    "Verif.C89_centred_partial",
    "Verif.C89_exact_partial",
    "Verif.C89_intercept_fails"
   ],
   "note": "The weights satisfy the normal equation without intercept; for centred data (column means zero) the result is the true least squares line; in general the claim is refuted."
  },
  {
   "property": "C90",
   "status": "partial",
   "theorems": [
    "Verif.C90_cloglog_reg_mbgd_partial",
    "Verif.C90_lin_reg_sgd",
    "Verif.C90_log_reg_sgd",
    "Verif.C90_probit_reg_sgd",
    "Verif.C90_cloglog_reg_sgd",
    "Verif.C90_tanh_reg_sgd_fails",
    "Verif.C90_lin_reg_mbgd_partial",
    "Verif.C90_log_reg_mbgd_partial",
    "Verif.C90_lin_reg_mbgd_whole",
    "Verif.C90_log_reg_mbgd_whole",
    "Verif.C90_lin_reg_mbgd_fails",
    "Verif.C90_batch_size_fails",
    "Verif.C90_tanh_reg_mbgd_fails",
    "Verif.C90_probit_reg_mbgd_fails"
   ],
   "note": "sgd: linear, logistic, probit and complementary log-log in full; tanh refuted. mbgd: what linear and logistic compute is stated exactly (the outputs of the first batch); right when there is a single batch; tanh and probit refuted. mbgd of complementary log-log: C90_cloglog_reg_mbgd_partial."
  },
  {
   "property": "C91",
   "status": "partial",
   "theorems": [
    "Verif.C91_momentum_partial",
    "Verif.C91_nag_partial",
    "Verif.C91_adagrad_partial",
    "Verif.C91_adadelta_partial",
    "Verif.C91_adam_partial",
    "Verif.C91_adamax_partial",
    "Verif.C91_nadam_partial",
    "Verif.C91_frozen_fails"
   ],
   "note": "Each optimiser follows a rule stated in Spec/Glm; it differs from the published one: gradient of the weights multiplied by an integer quotient, nag leaves its look-ahead applied, adagrad keeps no sum, adam's exponents count epochs, nadam uses uncorrected momentum. In adamax the code divides 0 by 0 where the model yields 0."
  },
  {
   "property": "C92",
   "status": "partial",
   "theorems": [
    "Verif.C92_convolve_2d",
    "Verif.C92_stride_partial",
    "Verif.C92_any_stride_partial",
    "Verif.C92_stride_fails"
   ],
   "note": "Over the reals, for square results as the code makes them. Full for stride 1; for other strides the exact windows are stated, right when there are at most two a side, and the claim is refuted beyond."
  },
  {
   "property": "C93",
   "status": "partial",
   "theorems": [
    "Verif.C93_pool_2d",
    "Verif.C93_stride_partial",
    "Verif.C93_any_stride_partial",
    "Verif.C93_stride_fails",
    "Verif.C93_pool_3d",
    "Verif.C93_global",
    "Verif.C93_meaning"
   ],
   "note": "As C92. Greatest and least values need the constant infinity of the code to bound the cells."
  },
  {
   "property": "C94",
   "status": "partial",
   "theorems": [
    "Verif.C94_dy",
    "Verif.C94_dx",
    "Verif.C94_dx_partial",
    "Verif.C94_wide_fails",
    "Verif.C94_gradient",
    "Verif.C94_polar"
   ],
   "note": "dy in full; dx for images at most as wide as high, exact law for all shapes, refuted for wider ones."
  },
  {
   "property": "C95",
   "status": "partial",
   "theorems": [
    "Verif.C95_gaussian_filter",
    "Verif.C95_gaussian_filter_partial",
    "Verif.C95_symmetric",
    "Verif.C95_width_fails",
    "Verif.C95_even_fails"
   ],
   "note": "Full for odd sizes and width 1; other widths and even sizes refuted, with the exact law."
  },
  {
   "property": "C96",
   "status": "partial",
   "theorems": [
    "Verif.C96_convolve_3d_partial",
    "Verif.C96_several_filters_fails",
    "Verif.C96_padded_partial",
    "Verif.C96_padded_fails",
    "Verif.C96_convolve_3d_fails"
   ],
   "note": "Exact law for every number of filters, stride and padding; the claim is refuted for one filter, for several, and with padding even for one channel."
  },
  {
   "property": "C97",
   "status": "proved",
   "theorems": [
    "Verif.C97_compute_m",
    "Verif.C97_compute_mv",
    "Verif.C97_harris",
    "Verif.C97_dark"
   ],
   "note": ""
  },
  {
   "property": "C98",
   "status": "partial",
   "theorems": [
    "Verif.C98_filters",
    "Verif.C98_flat",
    "Verif.C98_sums",
    "Verif.C98_sobel_orientation_fails"
   ],
   "note": "Cells and flat response in full; the orientation of the Sobel pair is refuted."
  },
  {
   "property": "C99",
   "status": "partial",
   "theorems": [
    "Verif.C99_dct",
    "Verif.C99_orthogonal",
    "Verif.C99_inverse",
    "Verif.C99_energy",
    "Verif.C99_wide_fails"
   ],
   "note": "Full for square images, refuted for others."
  },
  {
   "property": "C100",
   "status": "partial",
   "theorems": [
    "Verif.C100_score",
    "Verif.C100_create",
    "Verif.C100_predict",
    "Verif.C100_missing_data",
    "Verif.C100_set_output_set_fails",
    "Verif.C100_sgd",
    "Verif.C100_gradient_descent_partial",
    "Verif.C100_gradient_descent_fails",
    "Verif.C100_mbgd_fails"
   ],
   "note": "Predictions, missing data and stochastic training in full; gradient descent: the weights follow the subgradient, the bias is refuted; mini-batches and set_output_set refuted."
  },
  {
   "property": "C101",
   "status": "partial",
   "theorems": [
    "Verif.C101_score",
    "Verif.C101_predict",
    "Verif.C101_missing_data",
    "Verif.C101_gradient_descent",
    "Verif.C101_sgd_partial",
    "Verif.C101_sgd_fails",
    "Verif.C101_mbgd_partial",
    "Verif.C101_mbgd_fails",
    "Verif.C101_create_partial"
   ],
   "note": "Predictions, missing data and gradient descent in full; stochastic training when there are at most as many classes as columns, refuted otherwise; mini-batches as the code forms them, refuted as a partition; creation without the biases."
  },
  {
   "property": "C102",
   "status": "partial",
   "theorems": [
    "Verif.C102_predict",
    "Verif.C102_predict_fails",
    "Verif.C102_uninitialised",
    "Verif.C102_setters",
    "Verif.C102_gradient_descent_partial",
    "Verif.C102_gradient_descent_fails",
    "Verif.C102_sgd_partial",
    "Verif.C102_mbgd_partial",
    "Verif.C102_mbgd_fails",
    "Verif.C102_create_partial",
    "Verif.C102_score"
   ],
   "note": "Predictions in full for the right width, refuted otherwise; the output layer makes exact steps of gradient descent, the hidden layer does not (characterised exactly, and refuted); mini-batches as the code forms them; creation without the hidden biases."
  },
  {
   "property": "C103",
   "status": "partial",
   "theorems": [
    "Verif.C103_forward_partial",
    "Verif.C103_test_partial",
    "Verif.C103_forward_fails",
    "Verif.C103_setters_fails",
    "Verif.C103_every_setter_fails",
    "Verif.C103_no_input_fails",
    "Verif.C103_create_partial",
    "Verif.C103_overflow_fails",
    "Verif.C103_forward_adj_partial"
   ],
   "note": "Forward pass and test in full except the functions without a working matrix version (refuted) and, for adj_softmax, pre-activations outside the int range (undefined behaviour, refuted); setters refuted; the biases of a new layer are never written, so nothing is said about them."
  },
  {
   "property": "C104",
   "status": "partial",
   "theorems": [
    "Verif.C104_forward_partial",
    "Verif.C104_test",
    "Verif.C104_setters_fails",
    "Verif.C104_create",
    "Verif.C104_overflow_fails"
   ],
   "note": "Forward pass, test and constructor in full, except adj_softmax outside the int range (refuted); setters refuted."
  },
  {
   "property": "C105",
   "status": "partial",
   "theorems": [
    "Verif.C105_forward_partial",
    "Verif.C105_test_partial",
    "Verif.C105_setters_partial",
    "Verif.C105_create_partial",
    "Verif.C105_overflow_fails",
    "Verif.C105_forward_fails"
   ],
   "note": "Forward pass and test except the functions without a working matrix version and adj_softmax outside the int range (both refuted); setters and constructor, except the biases, which are never written."
  },
  {
   "property": "C106",
   "status": "partial",
   "theorems": [
    "Verif.C106_test_partial",
    "Verif.C106_set_test_fails",
    "Verif.C106_no_output_fails",
    "Verif.C106_create",
    "Verif.C106_add_layer_partial",
    "Verif.C106_add_output_layer",
    "Verif.C106_score_partial"
   ],
   "note": "model_test in full for every activation function with pre-activations in the int range for adj_softmax; building except the biases of hidden layers, which are never written; model_set_test refuted (draws new weights)."
  },
  {
   "property": "C107",
   "status": "partial",
   "theorems": [
    "Verif.C107_gradient_descent_partial",
    "Verif.C107_gradient_descent_fails",
    "Verif.C107_nothing_learned_fails",
    "Verif.C107_mbgd_partial",
    "Verif.C107_batch_size_fails",
    "Verif.C107_sgd_fails"
   ],
   "note": "Each step is proved to be exact gradient descent for networks of any depth, but training as a whole is refuted (weights redrawn). The adaptive optimisers are C136."
  },
  {
   "property": "C108",
   "status": "partial",
   "theorems": [
    "Verif.C108_schedules",
    "Verif.C108_steps_partial",
    "Verif.C108_steps_fails",
    "Verif.C108_decreasing"
   ],
   "note": "All schedules; the step schedule as long as the number of drops is an int, undefined behaviour beyond (refuted)."
  },
  {
   "property": "C109",
   "status": "partial",
   "theorems": [
    "Verif.C109_model_test",
    "Verif.C109_set_test_partial",
    "Verif.C109_rows_fails",
    "Verif.C109_untrained_fails",
    "Verif.C109_not_ready"
   ],
   "note": "model_test in full; model_set_test for trained objects and sets with as many rows as the data; the rest refuted."
  },
  {
   "property": "C110",
   "status": "partial",
   "theorems": [
    "Verif.C110_create",
    "Verif.C110_setters",
    "Verif.C110_centroids",
    "Verif.C110_kmeanspp_partial",
    "Verif.C110_last_fails",
    "Verif.C110_farthest_fails"
   ],
   "note": "Random centroids and setters in full; k-means++ refuted (what it does is proved)."
  },
  {
   "property": "C111",
   "status": "partial",
   "theorems": [
    "Verif.C111_members_partial",
    "Verif.C111_kept_fails"
   ],
   "note": "Exactly one cluster per point, and the exact cluster; nearest centroid only where it is not the first one (refuted there)."
  },
  {
   "property": "C112",
   "status": "partial",
   "theorems": [
    "Verif.C112_lloyd_partial",
    "Verif.C112_stuck_fails",
    "Verif.C112_fresh",
    "Verif.C112_no_data",
    "Verif.C112_score",
    "Verif.C112_means_best"
   ],
   "note": "Full when k equals the number of columns (refuted otherwise), for non-empty clusters; the assignment is that of C111. score in full."
  },
  {
   "property": "C113",
   "status": "proved",
   "theorems": [
    "Verif.C113_model_test",
    "Verif.C113_model_set_test",
    "Verif.C113_create",
    "Verif.C113_score"
   ],
   "note": ""
  },
  {
   "property": "C114",
   "status": "partial",
   "theorems": [
    "Verif.C114_gradient_descent_partial",
    "Verif.C114_sgd_partial",
    "Verif.C114_gradient_descent_fails",
    "Verif.C114_sgd_empty_fails"
   ],
   "note": "What is done is proved for every number of epochs; it is gradient descent with the slope of each weight divided by its initial value (refuted otherwise), while the weights are positive; sgd of an empty data set is undefined."
  },
  {
   "property": "C115",
   "status": "partial",
   "theorems": [
    "Verif.C115_mbgd_fails",
    "Verif.C115_mbgd_partial"
   ],
   "note": "The full claim is refuted; proved for one column and one batch without the bias."
  },
  {
   "property": "C116",
   "status": "proved",
   "theorems": [
    "Verif.C116_model_test",
    "Verif.C116_model_set_test",
    "Verif.C116_create",
    "Verif.C116_score"
   ],
   "note": ""
  },
  {
   "property": "C117",
   "status": "proved",
   "theorems": [
    "Verif.C117_gradient_descent"
   ],
   "note": ""
  },
  {
   "property": "C118",
   "status": "partial",
   "theorems": [
    "Verif.C118_bias_partial",
    "Verif.C118_margin_fails",
    "Verif.C118_balance_fails"
   ],
   "note": "The claim is refuted; the exact recursion of the bias is proved."
  },
  {
   "property": "C119",
   "status": "partial",
   "theorems": [
    "Verif.C119_predict_partial",
    "Verif.C119_predict_fails",
    "Verif.C119_score",
    "Verif.C119_missing_data",
    "Verif.C119_create_partial"
   ],
   "note": "Predictions while the outputs are in the range of int (undefined behaviour beyond, refuted); score and missing data in full; the constructor without the biases, which are never written."
  },
  {
   "property": "C120",
   "status": "partial",
   "theorems": [
    "Verif.C120_gradient_descent_partial",
    "Verif.C120_sgd_partial",
    "Verif.C120_mbgd_partial",
    "Verif.C120_gradient_descent_fails",
    "Verif.C120_mbgd_fails"
   ],
   "note": "What every epoch does is proved: exact steps in the output layer, while the hidden layer follows the new output layer and mini-batches never change the output biases (refuted as gradient descent)."
  },
  {
   "property": "C121",
   "status": "partial",
   "theorems": [
    "Verif.C121_predict",
    "Verif.C121_score",
    "Verif.C121_not_set_up",
    "Verif.C121_setters_fails",
    "Verif.C121_create_partial"
   ],
   "note": "Predictions, score and objects not set up in full; setters make the object useless (refuted); the constructor without the biases, which are never written."
  },
  {
   "property": "C122",
   "status": "partial",
   "theorems": [
    "Verif.C122_gradient_descent_partial",
    "Verif.C122_sgd_partial",
    "Verif.C122_gradient_descent_fails",
    "Verif.C122_sgd_fails",
    "Verif.C122_mbgd_fails"
   ],
   "note": "What every epoch does is proved; it is not gradient descent (output biases n times too far, hidden layer through the new output layer), mini-batches are undefined in general: refuted."
  },
  {
   "property": "C123",
   "status": "partial",
   "theorems": [
    "Verif.C123_eigen_partial",
    "Verif.C123_two_by_two",
    "Verif.C123_diagonal",
    "Verif.C123_repeated_fails",
    "Verif.C123_negative_fails",
    "Verif.C123_null"
   ],
   "note": "Partial correctness for every square matrix (order, trace, unit eigenvectors, orthogonality relations), full correctness including termination for symmetric 2x2 and for diagonal matrices of any size; refuted for repeated eigenvalues and for negative off-diagonal entries from 3x3 on. Missing: termination in general."
  },
  {
   "property": "C124",
   "status": "partial",
   "theorems": [
    "Verif.C124_two_by_two_partial",
    "Verif.C124_diagonal_partial",
    "Verif.C124_zero_eigenvalue_fails",
    "Verif.C124_negative_fails",
    "Verif.C124_null_fails"
   ],
   "note": "Full for symmetric 2x2 and diagonal matrices of any size; zero_eigenvalue is inverted, and symmetric matrices with negative entries may be reported wrongly (refuted)."
  },
  {
   "property": "C125",
   "status": "partial",
   "theorems": [
    "Verif.C125_svd_partial",
    "Verif.C125_two_by_two_partial",
    "Verif.C125_diagonal_partial",
    "Verif.C125_product_fails",
    "Verif.C125_repeated_fails",
    "Verif.C125_null"
   ],
   "note": "Partial correctness for every matrix; 2x2 and diagonal matrices in full; the product of the factors is refuted in general."
  },
  {
   "property": "C126",
   "status": "partial",
   "theorems": [
    "Verif.C126_projection_partial",
    "Verif.C126_two_partial",
    "Verif.C126_uncorrelated_partial",
    "Verif.C126_tall_fails",
    "Verif.C126_score",
    "Verif.C126_null",
    "Verif.C126_create"
   ],
   "note": "Partial correctness for data with at least as many rows as columns; principal directions for two variables and for uncorrelated ones; refuted for more variables than samples. score, null and construction in full."
  },
  {
   "property": "C127",
   "status": "partial",
   "theorems": [
    "Verif.C127_test_partial",
    "Verif.C127_set_test_fails",
    "Verif.C127_set_test_flat",
    "Verif.C127_score_partial",
    "Verif.C127_not_initialised",
    "Verif.C127_no_data_fails",
    "Verif.C127_no_output_fails",
    "Verif.C127_create",
    "Verif.C127_create_null_fails",
    "Verif.C127_add_layer_partial",
    "Verif.C127_add_output_layer_partial"
   ],
   "note": "One input in full except adj_softmax; many inputs draw new hidden weights (refuted) and are right without hidden layers; building without the biases, which are never written."
  },
  {
   "property": "C128",
   "status": "partial",
   "theorems": [
    "Verif.C128_flat_partial",
    "Verif.C128_softmax_loss_fails",
    "Verif.C128_hidden_partial",
    "Verif.C128_hidden_fails",
    "Verif.C128_layers_fails"
   ],
   "note": "Exact gradient descent without hidden layers and for the output layer with one; hidden layers are redrawn, several of different size are undefined (refuted)."
  },
  {
   "property": "C129",
   "status": "partial",
   "theorems": [
    "Verif.C129_create_partial",
    "Verif.C129_constant_fails",
    "Verif.C129_set_constant_fails",
    "Verif.C129_score_fails",
    "Verif.C129_null_fails",
    "Verif.C129_wrong_fails"
   ],
   "note": "What is fitted is proved exactly; predictions are always class 0 (refuted)."
  },
  {
   "property": "C130",
   "status": "partial",
   "theorems": [
    "Verif.C130_create_partial",
    "Verif.C130_crash_fails",
    "Verif.C130_values_fails",
    "Verif.C130_test_partial",
    "Verif.C130_set_partial",
    "Verif.C130_score",
    "Verif.C130_rare_fails",
    "Verif.C130_null_fails",
    "Verif.C130_wrong_fails"
   ],
   "note": "Training and prediction exactly as computed (frequencies truncated to integers); refuted as a Bernoulli classifier."
  },
  {
   "property": "C131",
   "status": "partial",
   "theorems": [
    "Verif.C131_create_partial",
    "Verif.C131_constant_fails",
    "Verif.C131_any_fails",
    "Verif.C131_range",
    "Verif.C131_set",
    "Verif.C131_score",
    "Verif.C131_priors_fails",
    "Verif.C131_uninitialised",
    "Verif.C131_null_fails",
    "Verif.C131_classes"
   ],
   "note": "Range, consistency and score proved; predictions do not depend on the input (refuted)."
  },
  {
   "property": "C132",
   "status": "partial",
   "theorems": [
    "Verif.C132_create",
    "Verif.C132_add_layer_partial",
    "Verif.C132_add_output_layer",
    "Verif.C132_no_layers",
    "Verif.C132_split",
    "Verif.C132_generate_partial",
    "Verif.C132_generate_fails",
    "Verif.C132_score_partial",
    "Verif.C132_empty_fails",
    "Verif.C132_no_output_fails"
   ],
   "note": "Building, splitting and scores proved; samples come from freshly drawn weights (refuted), missing layers stop the program or dereference null (refuted)."
  },
  {
   "property": "C133",
   "status": "partial",
   "theorems": [
    "Verif.C133_training_fails"
   ],
   "note": "Refuted: training never returns, from every reachable GAN state, for all arguments."
  },
  {
   "property": "C134",
   "status": "partial",
   "theorems": [
    "Verif.C134_create",
    "Verif.C134_setters",
    "Verif.C134_add_layer_partial",
    "Verif.C134_add_null",
    "Verif.C134_create_layer_partial",
    "Verif.C134_get_layer",
    "Verif.C134_remove_layer",
    "Verif.C134_add_output_layer_partial",
    "Verif.C134_regularisation_fails",
    "Verif.C134_no_layers_fails",
    "Verif.C134_split",
    "Verif.C134_generate_partial",
    "Verif.C134_generate_fails",
    "Verif.C134_empty_fails",
    "Verif.C134_score_partial"
   ],
   "note": "Building, layer access, splitting and scores proved; regularisation argument ignored, samples from freshly drawn weights, missing layers: refuted."
  },
  {
   "property": "C135",
   "status": "partial",
   "theorems": [
    "Verif.C135_gradient_descent_partial",
    "Verif.C135_gradient_descent_fails",
    "Verif.C135_shallow_fails"
   ],
   "note": "Each of the steps is proved to be exact gradient descent on the stated loss; the result is lost because weights are redrawn, and networks with one or two hidden layers are undefined (refuted)."
  },
  {
   "property": "C136",
   "status": "partial",
   "theorems": [
    "Verif.C136_momentum_rule",
    "Verif.C136_adagrad_rule",
    "Verif.C136_adadelta_rule_partial",
    "Verif.C136_adamax_rule_partial",
    "Verif.C136_nadam_rule",
    "Verif.C136_amsgrad_rule",
    "Verif.C136_momentum_partial",
    "Verif.C136_nag_partial",
    "Verif.C136_adagrad_partial",
    "Verif.C136_adadelta_partial",
    "Verif.C136_adamax_partial",
    "Verif.C136_nadam_partial",
    "Verif.C136_amsgrad_partial",
    "Verif.C136_no_influence_fails",
    "Verif.C136_adam_fails",
    "Verif.C136_batch_size_fails"
   ],
   "note": "The rules are proved for all weights of networks of any depth; in adadelta the output layer and in adamax the hidden layers follow another rule, first moments are uninitialised, weights are drawn again before every step so that the methods have no influence (C136_no_influence_fails), and adam is always undefined (C136_adam_fails)."
  },
  {
   "property": "C137",
   "status": "partial",
   "theorems": [
    "Verif.Text.C137_stemming_partial",
    "Verif.Text.C137_unique",
    "Verif.Text.C137_padding_fails"
   ],
   "note": "Proved for all texts and lists of suffixes without separators; the result has four more spaces at the end than it should (C137_padding_fails)."
  },
  {
   "property": "C138",
   "status": "partial",
   "theorems": [
    "Verif.C138_formula_partial",
    "Verif.C138_range_partial",
    "Verif.C138_fails",
    "Verif.C138_one_column_fails",
    "Verif.C138_uninitialised"
   ],
   "note": "The exact value the code computes, for all data; it is the silhouette only by accident (C138_fails, C138_one_column_fails)."
  },
  {
   "property": "C139",
   "status": "partial",
   "theorems": [
    "Verif.C139_set_from_image",
    "Verif.C139_set_rejects",
    "Verif.C139_get_image_partial",
    "Verif.C139_get_edge",
    "Verif.C139_round_trip_partial",
    "Verif.C139_image_round_trip",
    "Verif.C139_large_fails",
    "Verif.C139_range_fails"
   ],
   "note": "Writing an image needs 1 to 16384 rows and columns and entries whose product with 255, truncated, is a byte (C139_large_fails, C139_range_fails); reading and both round trips are proved. Image formats with one byte for each channel."
  },
  {
   "property": "C140",
   "status": "partial",
   "theorems": [
    "Verif.C140_pixels",
    "Verif.C140_clamped",
    "Verif.C140_grey",
    "Verif.C140_missing",
    "Verif.C140_slice_image_partial",
    "Verif.C140_slices_image_partial",
    "Verif.C140_slices_into_partial",
    "Verif.C140_slice_into_partial",
    "Verif.C140_slice_set",
    "Verif.C140_slices_set",
    "Verif.C140_set_from_image",
    "Verif.C140_rejects",
    "Verif.C140_new_target_fails",
    "Verif.C140_add_image_fails"
   ],
   "note": "Proved for slices of 1 to 16384 rows and columns and targets with data (C140_new_target_fails); z_slices_add_image adds rows (C140_add_image_fails). C140_clamped, C140_grey and C140_missing say what is read back for components outside 0 to 1, grey formats and missing channels."
  },
  {
   "property": "C141",
   "status": "partial",
   "theorems": [
    "Verif.C141_x_get_image_actual",
    "Verif.C141_y_get_image_actual",
    "Verif.C141_get_image_partial",
    "Verif.C141_get_image_fails",
    "Verif.C141_y_set",
    "Verif.C141_x_set_actual",
    "Verif.C141_x_set_partial",
    "Verif.C141_x_set_fails",
    "Verif.C141_x_get_into_actual",
    "Verif.C141_y_get_into_actual",
    "Verif.C141_x_get_into_fails",
    "Verif.C141_y_get_into_fails"
   ],
   "note": "y_slice_set_image proved; the others exchange row and column or transpose: what they do is given exactly (the _actual theorems), with the cases where this is right (_partial) and counterexamples (_fails)."
  },
  {
   "property": "C142",
   "status": "partial",
   "theorems": [
    "Verif.C142_vec_set",
    "Verif.C142_vec_get_partial",
    "Verif.C142_vec_get_empty_fails",
    "Verif.C142_vec_round_trip_partial",
    "Verif.C142_mat_get",
    "Verif.C142_mat_flat_partial",
    "Verif.C142_mat_flat_empty_fails",
    "Verif.C142_mat_set_partial",
    "Verif.C142_mat_ragged_fails",
    "Verif.C142_mat_round_trip_partial",
    "Verif.C142_row_set",
    "Verif.C142_row_set_bad",
    "Verif.C142_ptr",
    "Verif.C142_ptr_null_fails",
    "Verif.C142_vectors_partial",
    "Verif.C142_vectors_none",
    "Verif.C142_vectors_ragged_fails",
    "Verif.C142_ten_get",
    "Verif.C142_ten_flat_partial",
    "Verif.C142_ten_flat_empty_fails",
    "Verif.C142_ten_set_partial",
    "Verif.C142_first_plane_fails",
    "Verif.C142_ten_round_trip_partial"
   ],
   "note": "Proved for objects with at least one cell and lists of one length; the empty and ragged cases are undefined or leave uninitialised cells (the _fails theorems)."
  },
  {
   "property": "C143",
   "status": "partial",
   "theorems": [
    "Verif.C143_embedding_partial",
    "Verif.C143_two_partial",
    "Verif.C143_same_fails"
   ],
   "note": "Shape, form and (for two sentences with two words) relation to the co-occurrences proved; the call ending is not, and the inner products are refuted by C143_same_fails."
  },
  {
   "property": "C144",
   "status": "partial",
   "theorems": [
    "Verif.C144_value_partial",
    "Verif.C144_arsech_fails",
    "Verif.C144_leaky_relu_partial",
    "Verif.C144_leaky_relu_fails",
    "Verif.C144_elu",
    "Verif.C144_kinks",
    "Verif.C144_vector_partial",
    "Verif.C144_matrix_partial"
   ],
   "note": "All functions but arsech, which is refuted; gelu is specified as the usual sigmoid approximation. Matrix versions of swish, mish, softplus and softsign return null or read null (C45)."
  },
  {
   "property": "C145",
   "status": "partial",
   "theorems": [
    "Verif.Data.C145_pairs",
    "Verif.Data.C145_rows_partial",
    "Verif.Data.C145_rows_fails",
    "Verif.Data.C145_training_fails",
    "Verif.Data.C145_targets_fails"
   ],
   "note": "Pairs proved; rows proved for sentences of two or more words and refuted otherwise; the matrices given to the network are characterised, and refute the claim about training. The training of the network from uninitialised targets is not described further."
  },
  {
   "property": "C146",
   "status": "proved",
   "theorems": [
    "Verif.ProbitReg.C146_last",
    "Verif.ProbitReg.C146_blank",
    "Verif.ProbitReg.C146_initialize",
    "Verif.ProbitReg.C146_session",
    "Verif.ProbitReg.C146_weights",
    "Verif.ProbitReg.C146_stale"
   ],
   "note": "All histories; the weights in [0, 1) are the numbers of the modelled random source."
  },
  {
   "property": "C147",
   "status": "proved",
   "theorems": [
    "Verif.HashMap.C147_history",
    "Verif.HashMap.C147_capacity",
    "Verif.HashMap.C147_fastmod"
   ],
   "note": "All histories, key types, hash functions and initial capacities; the load factor of 3/4 is compared exactly rather than in float."
  },
  {
   "property": "C148",
   "status": "partial",
   "theorems": [
    "Verif.Cow.C148_values",
    "Verif.Cow.C148_memory",
    "Verif.Cow.C148_next_power",
    "Verif.Cow.C148_large_fails"
   ],
   "note": "All histories, as long as no vector needs more than 2^31 bytes; beyond that resize uses a null pointer (refuted)."
  },
  {
   "property": "C149",
   "status": "proved",
   "theorems": [
    "Verif.HashSet.C149_history",
    "Verif.HashSet.C149_capacity",
    "Verif.HashSet.C149_set"
   ],
   "note": ""
  },
  {
   "property": "C150",
   "status": "proved",
   "theorems": [
    "Verif.Mlp.C150_initialize",
    "Verif.Mlp.C150_history",
    "Verif.Mlp.C150_setter_resets"
   ],
   "note": ""
  },
  {
   "property": "C151",
   "status": "proved",
   "theorems": [
    "Verif.SoftmaxReg.C151_initialize",
    "Verif.SoftmaxReg.C151_history",
    "Verif.SoftmaxReg.C151_weights"
   ],
   "note": ""
  },
  {
   "property": "C152",
   "status": "proved",
   "theorems": [
    "Verif.HiddenLayer.C152_initialize",
    "Verif.HiddenLayer.C152_history"
   ],
   "note": ""
  },
  {
   "property": "C153",
   "status": "proved",
   "theorems": [
    "Verif.OutputLayer.C153_history"
   ],
   "note": ""
  },
  {
   "property": "C154",
   "status": "proved",
   "theorems": [
    "Verif.KMeans.C154_history"
   ],
   "note": ""
  },
  {
   "property": "C155",
   "status": "proved",
   "theorems": [
    "Verif.MultiOutputLayer.C155_history"
   ],
   "note": ""
  },
  {
   "property": "C156",
   "status": "proved",
   "theorems": [
    "Verif.UniLinReg.C156_history",
    "Verif.UniLinReg.C156_from_data"
   ],
   "note": ""
  },
  {
   "property": "C157",
   "status": "partial",
   "theorems": [
    "Verif.Svc.C157_history_partial",
    "Verif.Svc.C157_empty_fails",
    "Verif.Svc.C157_set_output_set_fails"
   ],
   "note": "Proved for objects made with data and any sequence of set_c, data_z_set, data_bias_set and the three trainings (C157_history_partial), each with the step that the code really makes. For objects made empty the property is false for every history (C157_empty_fails), and so it is after any call of set_output_set (C157_set_output_set_fails). Missing: set_input_set, initialize and the setters of the vectors in the positive part."
  },
  {
   "property": "C158",
   "status": "partial",
   "theorems": [
    "Verif.KNN.C158_history_partial"
   ],
   "note": "Everything but the meaning of the answers: how many neighbours there are and what is counted is described exactly by Answer; that it is the majority class among k neighbours is false (C84_fails, C85_majority_fails)."
  },
  {
   "property": "C159",
   "status": "partial",
   "theorems": [
    "Verif.TanhReg.C159_sgd_fails",
    "Verif.TanhReg.C159_history_partial",
    "Verif.TanhReg.C159_empty_fails",
    "Verif.TanhReg.C159_set_output_set_fails"
   ],
   "note": "Proved for objects made with data and the calls of Admissible (C159_history_partial); set_output_set, objects made without data, get_output_set and train_sgd fail. Missing: set_input_set, initialize, the setters of the object's vectors, train_mbgd (undefined in general, C90_tanh_reg_mbgd_fails)."
  }
 ]
}