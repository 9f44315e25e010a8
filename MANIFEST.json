{
 "claims": [
  {
   "property": "C01",
   "status": "proved",
   "theorems": [
    "Ngmix.Props.C01_shear_is_disk_automorphism",
    "Ngmix.Props.C01_shear_stays_in_disk",
    "Ngmix.Props.C01_get_sheared_never_raises",
    "Ngmix.Props.C01_get_sheared_total",
    "Ngmix.Props.C01_get_sheared_iff",
    "Ngmix.Props.C01_get_sheared_needs_two_components"
   ],
   "note": ""
  },
  {
   "property": "C02",
   "status": "proved",
   "theorems": [
    "Ngmix.Props.C02_shear_inverse",
    "Ngmix.Props.C02_get_sheared_inverse",
    "Ngmix.Props.C02_shear_zero",
    "Ngmix.Props.C02_shear_of_round",
    "Ngmix.Props.C02_shear_compose"
   ],
   "note": ""
  },
  {
   "property": "C03",
   "status": "proved",
   "theorems": [
    "Ngmix.Props.C03_rotate_is_spin2",
    "Ngmix.Props.C03_rotate_group",
    "Ngmix.Props.C03_rotate_shear_covariant",
    "Ngmix.Props.C03_shape_methods"
   ],
   "note": ""
  },
  {
   "property": "C04",
   "status": "proved",
   "theorems": [
    "Ngmix.Props.C04_constructor",
    "Ngmix.Props.C04_set_g1g2",
    "Ngmix.Props.C04_successful_histories_valid",
    "Ngmix.Props.C04_valid_iff_last_succeeded",
    "Ngmix.Props.C04_failed_set_breaks_object",
    "Ngmix.Props.C04_copy_neg"
   ],
   "note": "The failure case (C04_failed_set_breaks_object) is a disagreement with what a user expects; recorded in DESIGN.md."
  },
  {
   "property": "C05",
   "status": "proved",
   "theorems": [
    "Ngmix.Props.C05_g_to_e",
    "Ngmix.Props.C05_e_to_g",
    "Ngmix.Props.C05_range_errors",
    "Ngmix.Props.C05_g_e_g",
    "Ngmix.Props.C05_e_g_e",
    "Ngmix.Props.C05_g_eta_g",
    "Ngmix.Props.C05_eta_g_eta",
    "Ngmix.Props.C05_e_eta_consistent",
    "Ngmix.Props.C05_g_to_e_array",
    "Ngmix.Props.C05_e_to_g_array",
    "Ngmix.Props.C05_g_to_eta_array",
    "Ngmix.Props.C05_zero"
   ],
   "note": ""
  },
  {
   "property": "C06",
   "status": "proved",
   "theorems": [
    "Ngmix.Props.C06_jacobian_is_determinant"
   ],
   "note": ""
  },
  {
   "property": "C07",
   "status": "proved",
   "theorems": [
    "Ngmix.Props.C07_round_factor",
    "Ngmix.Props.C07_T_Tround_inverse",
    "Ngmix.Props.C07_Tround_preserves_det"
   ],
   "note": ""
  },
  {
   "property": "C08",
   "status": "proved",
   "theorems": [
    "Ngmix.Props.C08_e2mom_mom2e",
    "Ngmix.Props.C08_e2mom_posdef",
    "Ngmix.Props.C08_mom2g",
    "Ngmix.Props.C08_g2mom_mom2g",
    "Ngmix.Props.C08_moms_to_e1e2"
   ],
   "note": ""
  },
  {
   "property": "C09",
   "status": "proved",
   "theorems": [
    "Ngmix.Props.C09_linear_inverses",
    "Ngmix.Props.C09_T_inverses",
    "Ngmix.Props.C09_consistent",
    "Ngmix.Props.C09_fwhm_factor"
   ],
   "note": ""
  },
  {
   "property": "C10",
   "status": "proved",
   "theorems": [
    "Ngmix.Props.C10_sheared_moments_matrix",
    "Ngmix.Props.C10_sheared_moments_det",
    "Ngmix.Props.C10_sheared_M1M2T_agrees",
    "Ngmix.Props.C10_sheared_g1g2T",
    "Ngmix.Props.C10_sheared_refused",
    "Ngmix.Props.C10_M1M2T_total"
   ],
   "note": ""
  },
  {
   "property": "C11",
   "status": "proved",
   "theorems": [
    "Ngmix.Props.C11_decision_table",
    "Ngmix.Props.C11_flags_zero_iff",
    "Ngmix.Props.C11_bad_sizes",
    "Ngmix.Props.C11_named_moments",
    "Ngmix.Props.C11_round_object_flagged",
    "Ngmix.Props.C11_zero_T_error_nan"
   ],
   "note": "C11_round_object_flagged, C11_zero_T_error_nan are the surprising cases; recorded in DESIGN.md."
  },
  {
   "property": "C12",
   "status": "proved",
   "theorems": [
    "Ngmix.Props.C12_no_regularisation",
    "Ngmix.Props.C12_regularised",
    "Ngmix.Props.C12_seventeen_moments",
    "Ngmix.Props.C12_argument_kept",
    "Ngmix.Props.C12_argument_spoiled"
   ],
   "note": ""
  },
  {
   "property": "C13",
   "status": "proved",
   "theorems": [
    "Ngmix.Props.C13_quadratic_form",
    "Ngmix.Props.C13_nonneg",
    "Ngmix.Props.C13_error_iff",
    "Ngmix.Props.C13_sign_symmetric",
    "Ngmix.Props.C13_zero_numerator_nan"
   ],
   "note": "C13_zero_numerator_nan is a disagreement with the formula; recorded in DESIGN.md."
  },
  {
   "property": "C14",
   "status": "proved",
   "theorems": [
    "Ngmix.Props.C14_round_trip",
    "Ngmix.Props.C14_affine",
    "Ngmix.Props.C14_origin",
    "Ngmix.Props.C14_singular"
   ],
   "note": ""
  },
  {
   "property": "C15",
   "status": "proved",
   "theorems": [
    "Ngmix.Props.C15_rowcol_construction",
    "Ngmix.Props.C15_xy_construction",
    "Ngmix.Props.C15_conventions_agree",
    "Ngmix.Props.C15_wcs_construction",
    "Ngmix.Props.C15_constructed_wellformed",
    "Ngmix.Props.C15_missing_keyword",
    "Ngmix.Props.C15_set_cen",
    "Ngmix.Props.C15_set_cen_crash_point",
    "Ngmix.Props.C15_copy",
    "Ngmix.Props.C15_diagonal"
   ],
   "note": "C15_set_cen_crash_point: failed call with an effect; recorded in DESIGN.md."
  },
  {
   "property": "C16",
   "status": "proved",
   "theorems": [
    "Ngmix.Props.C16_area",
    "Ngmix.Props.C16_diagonal_area"
   ],
   "note": ""
  },
  {
   "property": "C17",
   "status": "proved",
   "theorems": [
    "Ngmix.Props.C17_make_pixels_ignore",
    "Ngmix.Props.C17_make_pixels_all",
    "Ngmix.Props.C17_make_coords"
   ],
   "note": ""
  },
  {
   "property": "C18",
   "status": "proved",
   "theorems": [
    "Ngmix.Props.C18_centroid",
    "Ngmix.Props.C18_size_and_shape",
    "Ngmix.Props.C18_set_flux",
    "Ngmix.Props.C18_set_cen",
    "Ngmix.Props.C18_construct",
    "Ngmix.Props.C18_full_pars_roundtrip",
    "Ngmix.Props.C18_copy",
    "Ngmix.Props.C18_eq_broadcasts",
    "Ngmix.Props.C18_compiled_shape"
   ],
   "note": "C18_eq_broadcasts: surprising equality; recorded in DESIGN.md."
  },
  {
   "property": "C19",
   "status": "proved",
   "theorems": [
    "Ngmix.Props.C19_fails",
    "Ngmix.Props.C19_convolution",
    "Ngmix.Props.C19_pairs"
   ],
   "note": ""
  },
  {
   "property": "C20",
   "status": "proved",
   "theorems": [
    "Ngmix.Props.C20_set",
    "Ngmix.Props.C20_set_norm",
    "Ngmix.Props.C20_set_norms",
    "Ngmix.Props.C20_history",
    "Ngmix.Props.C20_use_is_current",
    "Ngmix.Props.C20_partial_failure",
    "Ngmix.Props.C20_make_round_stale",
    "Ngmix.Props.C20_make_round"
   ],
   "note": "C20_partial_failure, C20_make_round_stale: violations in the unchanged code; recorded in DESIGN.md."
  },
  {
   "property": "C21",
   "status": "proved",
   "theorems": [
    "Ngmix.Props.C21_chi2",
    "Ngmix.Props.C21_symmetric_peak",
    "Ngmix.Props.C21_integral",
    "Ngmix.Props.C21_mixture_integral",
    "Ngmix.Props.C21_render_adds"
   ],
   "note": ""
  },
  {
   "property": "C22",
   "status": "proved",
   "theorems": [
    "Ngmix.Props.C22_fill_simple",
    "Ngmix.Props.C22_tables",
    "Ngmix.Props.C22_model"
   ],
   "note": ""
  },
  {
   "property": "C23",
   "status": "proved",
   "theorems": [
    "Ngmix.Props.C23_tfactor",
    "Ngmix.Props.C23_cm",
    "Ngmix.Props.C23_bdf",
    "Ngmix.Props.C23_bd",
    "Ngmix.Props.C23_coellip"
   ],
   "note": ""
  },
  {
   "property": "C24",
   "status": "proved",
   "theorems": [
    "Ngmix.Props.C24_copy",
    "Ngmix.Props.C24_set_flux_lost",
    "Ngmix.Props.C24_shear_lost",
    "Ngmix.Props.C24_make_round"
   ],
   "note": "C24_set_flux_lost, C24_shear_lost: violations of what a user expects from copy; recorded in DESIGN.md."
  },
  {
   "property": "C25",
   "status": "proved",
   "theorems": [
    "Ngmix.Props.C25_concat",
    "Ngmix.Props.C25_npars",
    "Ngmix.Props.C25_ngauss",
    "Ngmix.Props.C25_tables_disagree",
    "Ngmix.Props.C25_names_numbers",
    "Ngmix.Props.C25_ngauss_name"
   ],
   "note": "C25_tables_disagree lists the holes; recorded in DESIGN.md."
  },
  {
   "property": "C26",
   "status": "proved",
   "theorems": [
    "Ngmix.Props.C26_exp5",
    "Ngmix.Props.C26_exp4_true_bound",
    "Ngmix.Props.C26_exp3",
    "Ngmix.Props.C26_exp4_doc_bound_fails",
    "Ngmix.Props.C26_eval"
   ],
   "note": "exp5 (the one used) within 4e-5, exp3 within 0.004 as documented; the documented 2e-4 of the unused exp4 is false (C26_exp4_doc_bound_fails)"
  },
  {
   "property": "C27",
   "status": "proved",
   "theorems": [
    "Ngmix.Props.C27_sum_of_components",
    "Ngmix.Props.C27_fdiff_slots",
    "Ngmix.Props.C27_loglike",
    "Ngmix.Props.C27_s2n_sums",
    "Ngmix.Props.C27_fill_fdiff_check",
    "Ngmix.Props.C27_exact_room_refused"
   ],
   "note": ""
  },
  {
   "property": "C28",
   "status": "proved",
   "theorems": [
    "Ngmix.Props.C28_sums",
    "Ngmix.Props.C28_only_positive_weight",
    "Ngmix.Props.C28_lists_add_up",
    "Ngmix.Props.C28_vsum",
    "Ngmix.Props.C28_get_s2n",
    "Ngmix.Props.C28_scale_invariant"
   ],
   "note": ""
  },
  {
   "property": "C29",
   "status": "proved",
   "theorems": [
    "Ngmix.Props.C29_shapes_consistent",
    "Ngmix.Props.C29_rejected_assignment",
    "Ngmix.Props.C29_all_zero_weight_replaced"
   ],
   "note": "C29_all_zero_weight_replaced: refused call with an effect; recorded in DESIGN.md."
  },
  {
   "property": "C30",
   "status": "proved",
   "theorems": [
    "Ngmix.Props.C30_constructed_in_sync",
    "Ngmix.Props.C30_history",
    "Ngmix.Props.C30_exit_in_sync",
    "Ngmix.Props.C30_read_only_outside_block",
    "Ngmix.Props.C30_caller_alias_stale",
    "Ngmix.Props.C30_kept_jacobian_stale",
    "Ngmix.Props.C30_out_of_sync_reachable"
   ],
   "note": "C30_out_of_sync_reachable, C30_caller_alias_stale: violations in the unchanged code; recorded in DESIGN.md."
  },
  {
   "property": "C31",
   "status": "proved",
   "theorems": [
    "Ngmix.Props.C31_copy",
    "Ngmix.Props.C31_copy_independent",
    "Ngmix.Props.C31_update_meta",
    "Ngmix.Props.C31_copy_equal",
    "Ngmix.Props.C31_reflexive",
    "Ngmix.Props.C31_equal_sound",
    "Ngmix.Props.C31_not_symmetric",
    "Ngmix.Props.C31_broadcast_equal"
   ],
   "note": "C31_not_symmetric, C31_broadcast_equal: violations in the unchanged code; recorded in DESIGN.md."
  },
  {
   "property": "C32",
   "status": "proved",
   "theorems": [
    "Ngmix.Props.C32_set_gmix",
    "Ngmix.Props.C32_gmix_private",
    "Ngmix.Props.C32_get_gmix",
    "Ngmix.Props.C32_psf",
    "Ngmix.Props.C32_remove_gmix",
    "Ngmix.Props.C32_rejected_set_deletes"
   ],
   "note": "C32_rejected_set_deletes: refused call with an effect; recorded in DESIGN.md."
  },
  {
   "property": "C33",
   "status": "proved",
   "theorems": [
    "Ngmix.Props.C33_members_typed",
    "Ngmix.Props.C33_rejected_unchanged",
    "Ngmix.Props.C33_append",
    "Ngmix.Props.C33_setitem",
    "Ngmix.Props.C33_unchecked_paths",
    "Ngmix.Props.C33_copy",
    "Ngmix.Props.C33_copy_equal",
    "Ngmix.Props.C33_equality"
   ],
   "note": "C33_unchecked_paths: holes in the unchanged code; recorded in DESIGN.md."
  },
  {
   "property": "C34",
   "status": "proved",
   "theorems": [
    "Ngmix.Props.C34_get_mb_obs",
    "Ngmix.Props.C34_order_and_idempotence"
   ],
   "note": ""
  },
  {
   "property": "C35",
   "status": "proved",
   "theorems": [
    "Ngmix.Props.C35_retry_semantics",
    "Ngmix.Props.C35_ntry_nonpositive",
    "Ngmix.Props.C35_calls"
   ],
   "note": ""
  },
  {
   "property": "C36",
   "status": "proved",
   "theorems": [
    "Ngmix.Props.C36_psf_runner_list",
    "Ngmix.Props.C36_distinct",
    "Ngmix.Props.C36_shared_metadata",
    "Ngmix.Props.C36_get_gmix_raises",
    "Ngmix.Props.C36_psf_runner_multiband",
    "Ngmix.Props.C36_psf_runner_obs",
    "Ngmix.Props.C36_no_set_result",
    "Ngmix.Props.C36_wrong_type",
    "Ngmix.Props.C36_stale_gmix_after_failure"
   ],
   "note": "C36_stale_gmix_after_failure: a mixture that does not belong to the stored result; recorded in DESIGN.md."
  },
  {
   "property": "C37",
   "status": "proved",
   "theorems": [
    "Ngmix.Props.C37_list",
    "Ngmix.Props.C37_multiband",
    "Ngmix.Props.C37_single",
    "Ngmix.Props.C37_unfitted",
    "Ngmix.Props.C37_unfitted_in_list",
    "Ngmix.Props.C37_bootstrap_list",
    "Ngmix.Props.C37_bootstrap_multiband",
    "Ngmix.Props.C37_bootstrap_single",
    "Ngmix.Props.C37_bootstrap_keep_all",
    "Ngmix.Props.C37_bootstrap_without_psf",
    "Ngmix.Props.C37_kept_own_fit",
    "Ngmix.Props.C37_shared_metadata"
   ],
   "note": ""
  },
  {
   "property": "C38",
   "status": "proved",
   "theorems": [
    "Ngmix.Props.C38_lists_set_bits",
    "Ngmix.Props.C38_negative_iff",
    "Ngmix.Props.C38_flags_distinct_bits",
    "Ngmix.Props.C38_injective",
    "Ngmix.Props.C38_bit31_dropped"
   ],
   "note": "C38_bit31_dropped: a set bit is dropped silently; recorded in DESIGN.md."
  },
  {
   "property": "C39",
   "status": "proved",
   "theorems": [
    "Ngmix.Props.C39_inside",
    "Ngmix.Props.C39_round_trip",
    "Ngmix.Props.C39_round_trip_internal",
    "Ngmix.Props.C39_gradient",
    "Ngmix.Props.C39_outside_reflected",
    "Ngmix.Props.C39_evaluations",
    "Ngmix.Props.C39_only_inside",
    "Ngmix.Props.C39_start",
    "Ngmix.Props.C39_covariance",
    "Ngmix.Props.C39_returned_covariance"
   ],
   "note": "C39_outside_reflected: surprising treatment of a bad start; recorded in DESIGN.md."
  },
  {
   "property": "C40",
   "status": "proved",
   "theorems": [
    "Ngmix.Props.C40_flags_zero_iff",
    "Ngmix.Props.C40_success",
    "Ngmix.Props.C40_dof",
    "Ngmix.Props.C40_failures",
    "Ngmix.Props.C40_exceptions",
    "Ngmix.Props.C40_test_cov",
    "Ngmix.Props.C40_cov_psd",
    "Ngmix.Props.C40_minpack_flags_collide",
    "Ngmix.Props.C40_inside_bounds"
   ],
   "note": "C40_minpack_flags_collide: recorded in DESIGN.md."
  },
  {
   "property": "C41",
   "status": "proved",
   "theorems": [
    "Ngmix.Props.C41_no_prior",
    "Ngmix.Props.C41_partition",
    "Ngmix.Props.C41_simple_loses_pixel"
   ],
   "note": "C41_simple_loses_pixel: violation in the unchanged code, the chi^2 used for scaling errors drops a pixel; recorded in DESIGN.md."
  },
  {
   "property": "C42",
   "status": "proved",
   "theorems": [
    "Ngmix.Props.C42_residuals",
    "Ngmix.Props.C42_counts",
    "Ngmix.Props.C42_same_errors",
    "Ngmix.Props.C42_bd_without_lnprob",
    "Ngmix.Props.C42_bd_shape_prior",
    "Ngmix.Props.C42_constructors"
   ],
   "note": "C42_bd_without_lnprob: the two entry points disagree there; recorded in DESIGN.md."
  },
  {
   "property": "C43",
   "status": "proved",
   "theorems": [
    "Ngmix.Props.C43_bounds",
    "Ngmix.Props.C43_coellip_bounds",
    "Ngmix.Props.C43_sample",
    "Ngmix.Props.C43_coellip_sample",
    "Ngmix.Props.C43_tuple_refused"
   ],
   "note": "C43_coellip_bounds, C43_coellip_sample, C43_tuple_refused: violations in the unchanged code; recorded in DESIGN.md."
  },
  {
   "property": "C44",
   "status": "proved",
   "theorems": [
    "Ngmix.Props.C44_normal",
    "Ngmix.Props.C44_zero_sigma",
    "Ngmix.Props.C44_trunc",
    "Ngmix.Props.C44_trunc_mean_outside",
    "Ngmix.Props.C44_trunc_array_disagrees",
    "Ngmix.Props.C44_flat",
    "Ngmix.Props.C44_lognormal",
    "Ngmix.Props.C44_lognormal_refused",
    "Ngmix.Props.C44_lognormal_zero_sigma",
    "Ngmix.Props.C44_disk",
    "Ngmix.Props.C44_ba",
    "Ngmix.Props.C44_cen",
    "Ngmix.Props.C44_erf",
    "Ngmix.Props.C44_sinh",
    "Ngmix.Props.C44_sinh_doc"
   ],
   "note": "C44_trunc_mean_outside, C44_trunc_array_disagrees, C44_lognormal_zero_sigma, C44_sinh_doc: disagreements; recorded in DESIGN.md."
  },
  {
   "property": "C45",
   "status": "proved",
   "theorems": [
    "Ngmix.Props.C45_limits",
    "Ngmix.Props.C45_bounded_life",
    "Ngmix.Props.C45_rejection",
    "Ngmix.Props.C45_not_ended",
    "Ngmix.Props.C45_ends",
    "Ngmix.Props.C45_interval",
    "Ngmix.Props.C45_polar",
    "Ngmix.Props.C45_shapes",
    "Ngmix.Props.C45_disk",
    "Ngmix.Props.C45_flat",
    "Ngmix.Props.C45_lognormal"
   ],
   "note": ""
  },
  {
   "property": "C46",
   "status": "proved",
   "theorems": [
    "Ngmix.Props.C46_templates",
    "Ngmix.Props.C46_mixtures",
    "Ngmix.Props.C46_optimum",
    "Ngmix.Props.C46_scaling",
    "Ngmix.Props.C46_units",
    "Ngmix.Props.C46_units_templates",
    "Ngmix.Props.C46_units_mixtures",
    "Ngmix.Props.C46_template_units",
    "Ngmix.Props.C46_zero_norm",
    "Ngmix.Props.C46_refused"
   ],
   "note": ""
  },
  {
   "property": "C47",
   "status": "proved",
   "theorems": [
    "Ngmix.Props.C47_band_pars",
    "Ngmix.Props.C47_residual_vector",
    "Ngmix.Props.C47_lnprob",
    "Ngmix.Props.C47_out_of_range"
   ],
   "note": "bdc, which has eight parameters but whose selection fills six, is excluded: no fit model with it can be constructed. Negative band numbers are not modelled."
  },
  {
   "property": "C48",
   "status": "proved",
   "theorems": [
    "Ngmix.Props.C48_fit",
    "Ngmix.Props.C48_flux",
    "Ngmix.Props.C48_flux_unmasked",
    "Ngmix.Props.C48_fixed",
    "Ngmix.Props.C48_covariance",
    "Ngmix.Props.C48_positive"
   ],
   "note": ""
  },
  {
   "property": "C49",
   "status": "proved",
   "theorems": [
    "Ngmix.Props.C49_total",
    "Ngmix.Props.C49_flags",
    "Ngmix.Props.C49_converged_yet_flagged",
    "Ngmix.Props.C49_fdiff_unassigned"
   ],
   "note": ""
  },
  {
   "property": "C50",
   "status": "proved",
   "theorems": [
    "Ngmix.Props.C50_prep_image",
    "Ngmix.Props.C50_prep_obs",
    "Ngmix.Props.C50_constant_image"
   ],
   "note": ""
  },
  {
   "property": "C51",
   "status": "proved",
   "theorems": [
    "Ngmix.Props.C51_outcome",
    "Ngmix.Props.C51_converged",
    "Ngmix.Props.C51_maxiter_nonpos",
    "Ngmix.Props.C51_zero_weight_raises",
    "Ngmix.Props.C51_get_gmix",
    "Ngmix.Props.C51_find_cen",
    "Ngmix.Props.C51_find_cen_errors",
    "Ngmix.Props.C51_converged_at_maxiter",
    "Ngmix.Props.C51_size_guess",
    "Ngmix.Props.C51_from_size",
    "Ngmix.Props.C51_from_mixture",
    "Ngmix.Props.C51_find_cen_move",
    "Ngmix.Props.C51_find_cen_fwhm",
    "Ngmix.Props.C51_find_cen_mixture",
    "Ngmix.Props.C51_find_cen_calls"
   ],
   "note": ""
  },
  {
   "property": "C52",
   "status": "proved",
   "theorems": [
    "Ngmix.Props.C52_deweight",
    "Ngmix.Props.C52_low_det",
    "Ngmix.Props.C52_step",
    "Ngmix.Props.C52_wider_than_weight"
   ],
   "note": ""
  },
  {
   "property": "C53",
   "status": "proved",
   "theorems": [
    "Ngmix.Props.C53_get_all",
    "Ngmix.Props.C53_types_argument",
    "Ngmix.Props.C53_default",
    "Ngmix.Props.C53_kept"
   ],
   "note": ""
  },
  {
   "property": "C54",
   "status": "proved",
   "theorems": [
    "Ngmix.Props.C54_rotation_undone",
    "Ngmix.Props.C54_combined",
    "Ngmix.Props.C54_equal_weights_halve",
    "Ngmix.Props.C54_fixnoise",
    "Ngmix.Props.C54_get_all",
    "Ngmix.Props.C54_square_only",
    "Ngmix.Props.C54_noise_image"
   ],
   "note": ""
  },
  {
   "property": "C55",
   "status": "proved",
   "theorems": [
    "Ngmix.Props.C55_list",
    "Ngmix.Props.C55_multiband",
    "Ngmix.Props.C55_empty",
    "Ngmix.Props.C55_later_empty",
    "Ngmix.Props.C55_single",
    "Ngmix.Props.C55_uniform_keys",
    "Ngmix.Props.C55_bootstrap"
   ],
   "note": ""
  },
  {
   "property": "C56",
   "status": "proved",
   "theorems": [
    "Ngmix.Props.C56_dilation",
    "Ngmix.Props.C56_nonpositive_size",
    "Ngmix.Props.C56_fit_target",
    "Ngmix.Props.C56_shear_growth",
    "Ngmix.Props.C56_gauss_target"
   ],
   "note": "The target being smaller than the major axis contradicts the comment in the code; recorded in DESIGN.md."
  },
  {
   "property": "C57",
   "status": "proved",
   "theorems": [
    "Ngmix.Props.C57_history",
    "Ngmix.Props.C57_round",
    "Ngmix.Props.C57_observations",
    "Ngmix.Props.C57_retry_differs"
   ],
   "note": ""
  },
  {
   "property": "C58",
   "status": "proved",
   "theorems": [
    "Ngmix.Props.C58_prob",
    "Ngmix.Props.C58_component",
    "Ngmix.Props.C58_nan",
    "Ngmix.Props.C58_array",
    "Ngmix.Props.C58_normalised"
   ],
   "note": ""
  },
  {
   "property": "C59",
   "status": "proved",
   "theorems": [
    "Ngmix.Props.C59_pad",
    "Ngmix.Props.C59_pad_total",
    "Ngmix.Props.C59_profile",
    "Ngmix.Props.C59_mask",
    "Ngmix.Props.C59_apodize"
   ],
   "note": ""
  },
  {
   "property": "C60",
   "status": "proved",
   "theorems": [
    "Ngmix.Props.C60_floor",
    "Ngmix.Props.C60_mask",
    "Ngmix.Props.C60_nonfinite",
    "Ngmix.Props.C60_zero_psf"
   ],
   "note": ""
  },
  {
   "property": "C61",
   "status": "proved",
   "theorems": [
    "Ngmix.Props.C61_returned_kernels",
    "Ngmix.Props.C61_covariance",
    "Ngmix.Props.C61_linear"
   ],
   "note": ""
  },
  {
   "property": "C62",
   "status": "proved",
   "theorems": [
    "Ngmix.Props.C62_fluxes",
    "Ngmix.Props.C62_pars",
    "Ngmix.Props.C62_default_widths",
    "Ngmix.Props.C62_nu",
    "Ngmix.Props.C62_r50nu",
    "Ngmix.Props.C62_shape",
    "Ngmix.Props.C62_shape_returns",
    "Ngmix.Props.C62_shape_above_max",
    "Ngmix.Props.C62_shape_refused",
    "Ngmix.Props.C62_tflux",
    "Ngmix.Props.C62_r50",
    "Ngmix.Props.C62_tflux_prior",
    "Ngmix.Props.C62_bdf",
    "Ngmix.Props.C62_bd",
    "Ngmix.Props.C62_too_many_bands",
    "Ngmix.Props.C62_fix",
    "Ngmix.Props.C62_settled",
    "Ngmix.Props.C62_fix_gives_up",
    "Ngmix.Props.C62_prior_guesser",
    "Ngmix.Props.C62_misfit"
   ],
   "note": ""
  },
  {
   "property": "C63",
   "status": "proved",
   "theorems": [
    "Ngmix.Props.C63_history",
    "Ngmix.Props.C63_other",
    "Ngmix.Props.C63_stale",
    "Ngmix.Props.C63_guess",
    "Ngmix.Props.C63_guess_prior"
   ],
   "note": ""
  },
  {
   "property": "C64",
   "status": "proved",
   "theorems": [
    "Ngmix.Props.C64_factor",
    "Ngmix.Props.C64_integral",
    "Ngmix.Props.C64_mixture",
    "Ngmix.Props.C64_mixture_integral",
    "Ngmix.Props.C64_positions",
    "Ngmix.Props.C64_refused",
    "Ngmix.Props.C64_entry",
    "Ngmix.Props.C64_catalog",
    "Ngmix.Props.C64_catalog_refused",
    "Ngmix.Props.C64_composite_size",
    "Ngmix.Props.C64_entry_cm",
    "Ngmix.Props.C64_entry_bdf",
    "Ngmix.Props.C64_catalog_rows"
   ],
   "note": ""
  },
  {
   "property": "C65",
   "status": "proved",
   "theorems": [
    "Ngmix.Props.C65_sums",
    "Ngmix.Props.C65_covariance",
    "Ngmix.Props.C65_append",
    "Ngmix.Props.C65_linear",
    "Ngmix.Props.C65_first_six"
   ],
   "note": ""
  },
  {
   "property": "C66",
   "status": "proved",
   "theorems": [
    "Ngmix.Props.C66_meds_all",
    "Ngmix.Props.C66_noise",
    "Ngmix.Props.C66_noise_needs_rng",
    "Ngmix.Props.C66_simulate",
    "Ngmix.Props.C66_simulate_iff",
    "Ngmix.Props.C66_simulate_errors",
    "Ngmix.Props.C66_noise_matches_weight",
    "Ngmix.Props.C66_list",
    "Ngmix.Props.C66_multiband",
    "Ngmix.Props.C66_arguments",
    "Ngmix.Props.C66_meds",
    "Ngmix.Props.C66_meds_bands",
    "Ngmix.Props.C66_meds_objects",
    "Ngmix.Props.C66_meds_weight"
   ],
   "note": ""
  },
  {
   "property": "C67",
   "status": "proved",
   "theorems": [
    "Ngmix.Props.C67_history_free",
    "Ngmix.Props.C67_guess_free"
   ],
   "note": ""
  },
  {
   "property": "C68",
   "status": "proved",
   "theorems": [
    "Ngmix.Props.C68_objective_no_prior",
    "Ngmix.Props.C68_objective"
   ],
   "note": ""
  },
  {
   "property": "C69",
   "status": "proved",
   "theorems": [
    "Ngmix.Props.C69_flagged",
    "Ngmix.Props.C69_converged"
   ],
   "note": ""
  },
  {
   "property": "C70",
   "status": "proved",
   "theorems": [
    "Ngmix.Props.C70_admom",
    "Ngmix.Props.C70_maximum_likelihood",
    "Ngmix.Props.C70_last_resort",
    "Ngmix.Props.C70_errors"
   ],
   "note": ""
  },
  {
   "property": "C71",
   "status": "proved",
   "theorems": [
    "Ngmix.Props.C71_measured",
    "Ngmix.Props.C71_psf_independent",
    "Ngmix.Props.C71_even",
    "Ngmix.Props.C71_go",
    "Ngmix.Props.C71_no_psf"
   ],
   "note": ""
  },
  {
   "property": "C72",
   "status": "proved",
   "theorems": [
    "Ngmix.Props.C72_frequency",
    "Ngmix.Props.C72_ksigma",
    "Ngmix.Props.C72_gauss",
    "Ngmix.Props.C72_unit_peak",
    "Ngmix.Props.C72_ksigma_errors",
    "Ngmix.Props.C72_maximum",
    "Ngmix.Props.C72_gauss_errors",
    "Ngmix.Props.C72_peak_integral",
    "Ngmix.Props.C72_smoothing"
   ],
   "note": ""
  },
  {
   "property": "C73",
   "status": "proved",
   "theorems": [
    "Ngmix.Props.C73_classes",
    "Ngmix.Props.C73_phase",
    "Ngmix.Props.C73_kernel_names",
    "Ngmix.Props.C73_refused",
    "Ngmix.Props.C73_padding",
    "Ngmix.Props.C73_fits",
    "Ngmix.Props.C73_caches"
   ],
   "note": ""
  },
  {
   "property": "C74",
   "status": "proved",
   "theorems": [
    "Ngmix.Props.C74_noise"
   ],
   "note": ""
  },
  {
   "property": "C75",
   "status": "proved",
   "theorems": [
    "Ngmix.Props.C75_weight",
    "Ngmix.Props.C75_go",
    "Ngmix.Props.C75_zero_weight",
    "Ngmix.Props.C75_lists",
    "Ngmix.Props.C75_repeatable"
   ],
   "note": ""
  },
  {
   "property": "C76",
   "status": "proved",
   "theorems": [
    "Ngmix.Props.C76_mixture",
    "Ngmix.Props.C76_refused",
    "Ngmix.Props.C76_posdef",
    "Ngmix.Props.C76_flux",
    "Ngmix.Props.C76_default",
    "Ngmix.Props.C76_not_posdef",
    "Ngmix.Props.C76_moments",
    "Ngmix.Props.C76_simple",
    "Ngmix.Props.C76_coellip"
   ],
   "note": ""
  },
  {
   "property": "C77",
   "status": "proved",
   "theorems": [
    "Ngmix.Props.C77_pure",
    "Ngmix.Props.C77_left_behind",
    "Ngmix.Props.C77_entries",
    "Ngmix.Props.C77_statistics",
    "Ngmix.Props.C77_covariance_no_prior",
    "Ngmix.Props.C77_covariance_prior",
    "Ngmix.Props.C77_in_range",
    "Ngmix.Props.C77_bounds"
   ],
   "note": ""
  },
  {
   "property": "C78",
   "status": "proved",
   "theorems": [
    "Ngmix.Props.C78_same_mixture",
    "Ngmix.Props.C78_psf_for_all",
    "Ngmix.Props.C78_missing",
    "Ngmix.Props.C78_missing_band",
    "Ngmix.Props.C78_only_later_psf",
    "Ngmix.Props.C78_only_later_psf_witness"
   ],
   "note": ""
  },
  {
   "property": "C79",
   "status": "proved",
   "theorems": [
    "Ngmix.Props.C79_construct",
    "Ngmix.Props.C79_contents",
    "Ngmix.Props.C79_refused",
    "Ngmix.Props.C79_set_psf",
    "Ngmix.Props.C79_set_psf_history",
    "Ngmix.Props.C79_refused_psf_kept",
    "Ngmix.Props.C79_make_kobs",
    "Ngmix.Props.C79_make_kobs_consistent",
    "Ngmix.Props.C79_metadata",
    "Ngmix.Props.C79_empty",
    "Ngmix.Props.C79_succeeds"
   ],
   "note": ""
  },
  {
   "property": "C80",
   "status": "proved",
   "theorems": [
    "Ngmix.Props.C80_construct",
    "Ngmix.Props.C80_history",
    "Ngmix.Props.C80_residuals",
    "Ngmix.Props.C80_residuals_prior",
    "Ngmix.Props.C80_out_of_range",
    "Ngmix.Props.C80_shared_metadata",
    "Ngmix.Props.C80_shared_metadata_wrong"
   ],
   "note": ""
  },
  {
   "property": "C81",
   "status": "proved",
   "theorems": [
    "Ngmix.Props.C81_refused",
    "Ngmix.Props.C81_pure",
    "Ngmix.Props.C81_statistics",
    "Ngmix.Props.C81_flux",
    "Ngmix.Props.C81_flux_wrong",
    "Ngmix.Props.C81_covariance",
    "Ngmix.Props.C81_covariance_prior",
    "Ngmix.Props.C81_in_range",
    "Ngmix.Props.C81_bounds"
   ],
   "note": ""
  },
  {
   "property": "C82",
   "status": "proved",
   "theorems": [
    "Ngmix.Props.C82_flux",
    "Ngmix.Props.C82_unit_sum",
    "Ngmix.Props.C82_refused",
    "Ngmix.Props.C82_empty",
    "Ngmix.Props.C82_chi2_wrong"
   ],
   "note": ""
  },
  {
   "property": "C83",
   "status": "proved",
   "theorems": [
    "Ngmix.Props.C83_prob_exp",
    "Ngmix.Props.C83_at_most_one",
    "Ngmix.Props.C83_prob_array",
    "Ngmix.Props.C83_lnprob_array",
    "Ngmix.Props.C83_flat_lnprob_array",
    "Ngmix.Props.C83_erf_zero_width",
    "Ngmix.Props.C83_fdiff_array",
    "Ngmix.Props.C83_erf_sign",
    "Ngmix.Props.C83_erf_positive",
    "Ngmix.Props.C83_erf_negative",
    "Ngmix.Props.C83_trunc_array"
   ],
   "note": ""
  },
  {
   "property": "C84",
   "status": "proved",
   "theorems": [
    "Ngmix.Props.C84_ba_lnprob",
    "Ngmix.Props.C84_prob2d",
    "Ngmix.Props.C84_prob1d",
    "Ngmix.Props.C84_ba_fdiff",
    "Ngmix.Props.C84_disk1d",
    "Ngmix.Props.C84_cen",
    "Ngmix.Props.C84_joint_array",
    "Ngmix.Props.C84_joint_prob_array",
    "Ngmix.Props.C84_joint_disk",
    "Ngmix.Props.C84_gauss",
    "Ngmix.Props.C84_coellip_array",
    "Ngmix.Props.C84_coellip_wrong",
    "Ngmix.Props.C84_widths",
    "Ngmix.Props.C84_widths_shared"
   ],
   "note": ""
  },
  {
   "property": "C85",
   "status": "proved",
   "theorems": [
    "Ngmix.Props.C85_sizes",
    "Ngmix.Props.C85_normal_size",
    "Ngmix.Props.C85_normal_negative",
    "Ngmix.Props.C85_supports",
    "Ngmix.Props.C85_brute",
    "Ngmix.Props.C85_brute_raises",
    "Ngmix.Props.C85_fit_guess",
    "Ngmix.Props.C85_fit_guess_numbers",
    "Ngmix.Props.C85_fit_tries",
    "Ngmix.Props.C85_fit_retries_useless",
    "Ngmix.Props.C85_fit_residuals",
    "Ngmix.Props.C85_fit_shift"
   ],
   "note": ""
  },
  {
   "property": "C86",
   "status": "proved",
   "theorems": [
    "Ngmix.Props.C86_component",
    "Ngmix.Props.C86_negative_accepted",
    "Ngmix.Props.C86_point",
    "Ngmix.Props.C86_component_refused",
    "Ngmix.Props.C86_brightness",
    "Ngmix.Props.C86_outcomes"
   ],
   "note": ""
  },
  {
   "property": "C87",
   "status": "proved",
   "theorems": [
    "Ngmix.Props.C87_geometry",
    "Ngmix.Props.C87_psf",
    "Ngmix.Props.C87_cutout",
    "Ngmix.Props.C87_exceptions",
    "Ngmix.Props.C87_weight_names",
    "Ngmix.Props.C87_metadata"
   ],
   "note": ""
  },
  {
   "property": "C88",
   "status": "proved",
   "theorems": [
    "Ngmix.Props.C88_make_image",
    "Ngmix.Props.C88_fast_image",
    "Ngmix.Props.C88_admom_image",
    "Ngmix.Props.C88_em_image",
    "Ngmix.Props.C88_sigma",
    "Ngmix.Props.C88_statistics",
    "Ngmix.Props.C88_coellip_sizes",
    "Ngmix.Props.C88_run_em"
   ],
   "note": ""
  },
  {
   "property": "C89",
   "status": "proved",
   "theorems": [
    "Ngmix.Props.C89_transparent",
    "Ngmix.Props.C89_bounded",
    "Ngmix.Props.C89_shared",
    "Ngmix.Props.C89_fresh",
    "Ngmix.Props.C89_not_transparent"
   ],
   "note": ""
  },
  {
   "property": "C90",
   "status": "proved",
   "theorems": [
    "Ngmix.Props.C90_prob",
    "Ngmix.Props.C90_sample",
    "Ngmix.Props.C90_sample_shape",
    "Ngmix.Props.C90_sampler_stale",
    "Ngmix.Props.C90_sampler_disagrees",
    "Ngmix.Props.C90_save_load",
    "Ngmix.Props.C90_failed_set",
    "Ngmix.Props.C90_init",
    "Ngmix.Props.C90_converged"
   ],
   "note": ""
  },
  {
   "property": "C91",
   "status": "proved",
   "theorems": [
    "Ngmix.Props.C91_generators",
    "Ngmix.Props.C91_srandu",
    "Ngmix.Props.C91_kde"
   ],
   "note": ""
  },
  {
   "property": "C92",
   "status": "proved",
   "theorems": [
    "Ngmix.Props.C92_setup",
    "Ngmix.Props.C92_arguments",
    "Ngmix.Props.C92_in_range"
   ],
   "note": ""
  },
  {
   "property": "C93",
   "status": "proved",
   "theorems": [
    "Ngmix.Props.C93_pixels",
    "Ngmix.Props.C93_likelihood",
    "Ngmix.Props.C93_image",
    "Ngmix.Props.C93_convolve",
    "Ngmix.Props.C93_rotated",
    "Ngmix.Props.C93_models",
    "Ngmix.Props.C93_composite",
    "Ngmix.Props.C93_fit",
    "Ngmix.Props.C93_shear",
    "Ngmix.Props.C93_shear_centre"
   ],
   "note": ""
  },
  {
   "property": "C94",
   "status": "proved",
   "theorems": [
    "Ngmix.Props.C94_maximum_kept",
    "Ngmix.Props.C94_first_sample",
    "Ngmix.Props.C94_kept_fraction",
    "Ngmix.Props.C94_exact",
    "Ngmix.Props.C94_stale_maximum",
    "Ngmix.Props.C94_set_pars",
    "Ngmix.Props.C94_new",
    "Ngmix.Props.C94_brute",
    "Ngmix.Props.C94_samples",
    "Ngmix.Props.C94_brute_samples",
    "Ngmix.Props.C94_brute_negative",
    "Ngmix.Props.C94_residuals_pure",
    "Ngmix.Props.C94_residuals",
    "Ngmix.Props.C94_fit",
    "Ngmix.Props.C94_fit_guess"
   ],
   "note": ""
  },
  {
   "property": "C95",
   "status": "proved",
   "theorems": [
    "Ngmix.Props.C95_result",
    "Ngmix.Props.C95_gauss",
    "Ngmix.Props.C95_prepsf"
   ],
   "note": ""
  },
  {
   "property": "C96",
   "status": "proved",
   "theorems": [
    "Ngmix.Props.C96_axes",
    "Ngmix.Props.C96_no_psf",
    "Ngmix.Props.C96_unit",
    "Ngmix.Props.C96_guessed_sky",
    "Ngmix.Props.C96_unit_matters",
    "Ngmix.Props.C96_rotated_psf"
   ],
   "note": ""
  },
  {
   "property": "C97",
   "status": "proved",
   "theorems": [
    "Ngmix.Props.C97_axes",
    "Ngmix.Props.C97_rotated"
   ],
   "note": ""
  },
  {
   "property": "C98",
   "status": "proved",
   "theorems": [
    "Ngmix.Props.C98_setup",
    "Ngmix.Props.C98_fit",
    "Ngmix.Props.C98_flux_prior",
    "Ngmix.Props.C98_prior"
   ],
   "note": ""
  },
  {
   "property": "C99",
   "status": "proved",
   "theorems": [
    "Ngmix.Props.C99_moments",
    "Ngmix.Props.C99_turned",
    "Ngmix.Props.C99_axes",
    "Ngmix.Props.C99_flag_turns"
   ],
   "note": ""
  },
  {
   "property": "C100",
   "status": "proved",
   "theorems": [
    "Ngmix.Props.C100_lognormal_brute",
    "Ngmix.Props.C100_joint",
    "Ngmix.Props.C100_flat",
    "Ngmix.Props.C100_normal",
    "Ngmix.Props.C100_lognormal",
    "Ngmix.Props.C100_truncated",
    "Ngmix.Props.C100_erf",
    "Ngmix.Props.C100_erf_tails",
    "Ngmix.Props.C100_bounded",
    "Ngmix.Props.C100_disk",
    "Ngmix.Props.C100_disk_distance",
    "Ngmix.Props.C100_disk_lnprob1d",
    "Ngmix.Props.C100_center",
    "Ngmix.Props.C100_gauss",
    "Ngmix.Props.C100_ba_size",
    "Ngmix.Props.C100_ba_shape",
    "Ngmix.Props.C100_ba_brute"
   ],
   "note": ""
  },
  {
   "property": "C101",
   "status": "proved",
   "theorems": [
    "Ngmix.Props.C101_frame",
    "Ngmix.Props.C101_history",
    "Ngmix.Props.C101_makes",
    "Ngmix.Props.C101_changes",
    "Ngmix.Props.C101_copy_independent",
    "Ngmix.Props.C101_jacobian_copy_independent"
   ],
   "note": ""
  },
  {
   "property": "C102",
   "status": "proved",
   "theorems": [
    "Ngmix.Props.C102_galshear",
    "Ngmix.Props.C102_psfshear",
    "Ngmix.Props.C102_types",
    "Ngmix.Props.C102_no_shear",
    "Ngmix.Props.C102_psf_gone",
    "Ngmix.Props.C102_off_centre",
    "Ngmix.Props.C102_refused",
    "Ngmix.Props.C102_same_shear"
   ],
   "note": ""
  },
  {
   "property": "C103",
   "status": "proved",
   "theorems": [
    "Ngmix.Props.C103_iterations",
    "Ngmix.Props.C103_fluxonly",
    "Ngmix.Props.C103_maximum",
    "Ngmix.Props.C103_lower"
   ],
   "note": ""
  },
  {
   "property": "C104",
   "status": "proved",
   "theorems": [
    "Ngmix.Props.C104_pixels",
    "Ngmix.Props.C104_s2n",
    "Ngmix.Props.C104_likelihood",
    "Ngmix.Props.C104_fit",
    "Ngmix.Props.C104_go",
    "Ngmix.Props.C104_em",
    "Ngmix.Props.C104_em_sky",
    "Ngmix.Props.C104_psf_flux",
    "Ngmix.Props.C104_negative_weight",
    "Ngmix.Props.C104_moments",
    "Ngmix.Props.C104_prepsf",
    "Ngmix.Props.C104_psf_guess"
   ],
   "note": ""
  },
  {
   "property": "C105",
   "status": "proved",
   "theorems": [
    "Ngmix.Props.C105_gauss",
    "Ngmix.Props.C105_gauss_errors",
    "Ngmix.Props.C105_admom",
    "Ngmix.Props.C105_admom_errors",
    "Ngmix.Props.C105_em",
    "Ngmix.Props.C105_fit",
    "Ngmix.Props.C105_setup"
   ],
   "note": ""
  },
  {
   "property": "C106",
   "status": "proved",
   "theorems": [
    "Ngmix.Props.C106_templates",
    "Ngmix.Props.C106_mixtures",
    "Ngmix.Props.C106_fit",
    "Ngmix.Props.C106_prior",
    "Ngmix.Props.C106_drawn",
    "Ngmix.Props.C106_galsim"
   ],
   "note": ""
  },
  {
   "property": "C107",
   "status": "proved",
   "theorems": [
    "Ngmix.Props.C107_order",
    "Ngmix.Props.C107_first_decides",
    "Ngmix.Props.C107_templates",
    "Ngmix.Props.C107_mixtures",
    "Ngmix.Props.C107_galsim",
    "Ngmix.Props.C107_galsim_flux"
   ],
   "note": ""
  },
  {
   "property": "C108",
   "status": "proved",
   "theorems": [
    "Ngmix.Props.C108_pixels",
    "Ngmix.Props.C108_layouts",
    "Ngmix.Props.C108_gauss",
    "Ngmix.Props.C108_admom",
    "Ngmix.Props.C108_em",
    "Ngmix.Props.C108_em_nosky",
    "Ngmix.Props.C108_fit",
    "Ngmix.Props.C108_error_slots",
    "Ngmix.Props.C108_flux"
   ],
   "note": ""
  },
  {
   "property": "C109",
   "status": "proved",
   "theorems": [
    "Ngmix.Props.C109_bands",
    "Ngmix.Props.C109_galsim"
   ],
   "note": ""
  },
  {
   "property": "C110",
   "status": "proved",
   "theorems": [
    "Ngmix.Props.C110_transposed",
    "Ngmix.Props.C110_moments",
    "Ngmix.Props.C110_turned",
    "Ngmix.Props.C110_axes"
   ],
   "note": ""
  },
  {
   "property": "C111",
   "status": "proved",
   "theorems": [
    "Ngmix.Props.C111_format",
    "Ngmix.Props.C111_empty",
    "Ngmix.Props.C111_only",
    "Ngmix.Props.C111_refused",
    "Ngmix.Props.C111_print",
    "Ngmix.Props.C111_stray"
   ],
   "note": ""
  },
  {
   "property": "C112",
   "status": "proved",
   "theorems": [
    "Ngmix.Props.C112_templates",
    "Ngmix.Props.C112_mixtures",
    "Ngmix.Props.C112_fits",
    "Ngmix.Props.C112_added_templates",
    "Ngmix.Props.C112_added_mixtures",
    "Ngmix.Props.C112_galsim",
    "Ngmix.Props.C112_galsim_flux"
   ],
   "note": ""
  },
  {
   "property": "C113",
   "status": "proved",
   "theorems": [
    "Ngmix.Props.C113_summaries",
    "Ngmix.Props.C113_derived",
    "Ngmix.Props.C113_sheared",
    "Ngmix.Props.C113_uses",
    "Ngmix.Props.C113_em",
    "Ngmix.Props.C113_fits",
    "Ngmix.Props.C113_flux",
    "Ngmix.Props.C113_weighted",
    "Ngmix.Props.C113_first_centre",
    "Ngmix.Props.C113_after_failure"
   ],
   "note": ""
  },
  {
   "property": "C114",
   "status": "proved",
   "theorems": [
    "Ngmix.Props.C114_order",
    "Ngmix.Props.C114_parameters",
    "Ngmix.Props.C114_weights",
    "Ngmix.Props.C114_split"
   ],
   "note": ""
  },
  {
   "property": "C115",
   "status": "proved",
   "theorems": [
    "Ngmix.Props.C115_steps",
    "Ngmix.Props.C115_convolve_parts",
    "Ngmix.Props.C115_point",
    "Ngmix.Props.C115_exchange",
    "Ngmix.Props.C115_sheared",
    "Ngmix.Props.C115_collinear",
    "Ngmix.Props.C115_unshear",
    "Ngmix.Props.C115_sheared_moments",
    "Ngmix.Props.C115_concat_image",
    "Ngmix.Props.C115_split"
   ],
   "note": ""
  },
  {
   "property": "C116",
   "status": "proved",
   "theorems": [
    "Ngmix.Props.C116_round",
    "Ngmix.Props.C116_one_shape",
    "Ngmix.Props.C116_model",
    "Ngmix.Props.C116_model_forgets",
    "Ngmix.Props.C116_centres",
    "Ngmix.Props.C116_stale"
   ],
   "note": ""
  },
  {
   "property": "C117",
   "status": "proved",
   "theorems": [
    "Ngmix.Props.C117_sheared",
    "Ngmix.Props.C117_sheared_coellip",
    "Ngmix.Props.C117_rounded",
    "Ngmix.Props.C117_rounded_coellip"
   ],
   "note": ""
  },
  {
   "property": "C118",
   "status": "proved",
   "theorems": [
    "Ngmix.Props.C118_residuals",
    "Ngmix.Props.C118_lnprob",
    "Ngmix.Props.C118_best"
   ],
   "note": ""
  },
  {
   "property": "C119",
   "status": "proved",
   "theorems": [
    "Ngmix.Props.C119_moved",
    "Ngmix.Props.C119_convolved",
    "Ngmix.Props.C119_shape",
    "Ngmix.Props.C119_fits",
    "Ngmix.Props.C119_go",
    "Ngmix.Props.C119_em"
   ],
   "note": ""
  },
  {
   "property": "C120",
   "status": "proved",
   "theorems": [
    "Ngmix.Props.C120_unit"
   ],
   "note": ""
  },
  {
   "property": "C121",
   "status": "proved",
   "theorems": [
    "Ngmix.Props.C121_bdf",
    "Ngmix.Props.C121_bd",
    "Ngmix.Props.C121_coellip"
   ],
   "note": ""
  },
  {
   "property": "C122",
   "status": "proved",
   "theorems": [
    "Ngmix.Props.C122_templates",
    "Ngmix.Props.C122_mixtures",
    "Ngmix.Props.C122_galsim",
    "Ngmix.Props.C122_moments"
   ],
   "note": ""
  },
  {
   "property": "C123",
   "status": "proved",
   "theorems": [
    "Ngmix.Props.C123_higher",
    "Ngmix.Props.C123_flagged_by_higher"
   ],
   "note": ""
  }
 ]
}