'Props.C01_linear_recurrence' depends on axioms: [propext, Classical.choice, Quot.sound]
'Props.C01_unroll_factor_irrelevant' depends on axioms: [propext, Classical.choice, Quot.sound]
'Props.C01_equations' depends on axioms: [propext, Classical.choice, Quot.sound]
'Props.C01_rejects_unroll_factor' depends on axioms: [propext, Classical.choice, Quot.sound]
'Props.C01_rejects_shapes' depends on axioms: [propext, Classical.choice, Quot.sound]
'Props.C01_rejects_empty' depends on axioms: [propext, Classical.choice, Quot.sound]
'Props.C02_linear_recurrence' depends on axioms: [propext, Classical.choice, Quot.sound]
'Props.C02_unroll_factor_irrelevant' depends on axioms: [propext, Classical.choice, Quot.sound]
'Props.C02_equations' depends on axioms: [propext, Classical.choice, Quot.sound]
'Props.C02_rejects_unroll_factor' depends on axioms: [propext, Classical.choice, Quot.sound]
'Props.C02_rejects_shapes' depends on axioms: [propext, Classical.choice, Quot.sound]
'Props.C02_unchecked_length' depends on axioms: [propext, Classical.choice, Quot.sound]
'Props.C03_powers' depends on axioms: [propext, Classical.choice, Quot.sound]
'Props.C03_powers_batched' depends on axioms: [propext, Classical.choice, Quot.sound]
'Props.C03_zero' depends on axioms: [propext, Classical.choice, Quot.sound]
'Props.C03_zero_batched' depends on axioms: [propext, Classical.choice, Quot.sound]
'Props.C03_negative' depends on axioms: [propext, Classical.choice, Quot.sound]
'Props.C03_negative_batched' depends on axioms: [propext, Classical.choice, Quot.sound]
'Props.C03_negative_singular' depends on axioms: [propext, Classical.choice, Quot.sound]
'Props.C03_negative_inverse' depends on axioms: [propext, Classical.choice, Quot.sound]
'Props.C03_factorisation_irrelevant' depends on axioms: [propext, Classical.choice, Quot.sound]
'Props.C03_rejects_non_square' depends on axioms: [propext, Classical.choice, Quot.sound]
'Props.C03_powers_any_batch' depends on axioms: [propext, Classical.choice, Quot.sound]
'Props.C03_zero_any_batch' depends on axioms: [propext, Classical.choice, Quot.sound]
'Props.C03_negative_any_batch' depends on axioms: [propext, Classical.choice, Quot.sound]
'Props.C04_cumdot_partial' depends on axioms: [propext, Classical.choice, Quot.sound]
'Props.C04_cumdot_batched_partial' depends on axioms: [propext, Classical.choice, Quot.sound]
'Props.C04_cumdot_batched2_partial' depends on axioms: [propext, Classical.choice, Quot.sound]
'Props.C04_cumdot_any_batch_partial' depends on axioms: [propext, Classical.choice, Quot.sound]
'Props.C04_commuting_any_batch_partial' depends on axioms: [propext, Classical.choice, Quot.sound]
'Props.C04_misordered' depends on axioms: [propext, Classical.choice, Quot.sound]
'Props.C04_exact' depends on axioms: [propext, Classical.choice, Quot.sound]
'Props.C04_exact_commuting' depends on axioms: [propext, Classical.choice, Quot.sound]
'Props.C04_wrong_at_four' depends on axioms: [propext, Classical.choice, Quot.sound]
'Props.C04_wrong_at_eight' depends on axioms: [propext, Classical.choice, Quot.sound]
'Props.C05_state_space_recursion' depends on axioms: [propext, Classical.choice, Quot.sound]
'Props.C05_unroll_factor_irrelevant' depends on axioms: [propext, Classical.choice, Quot.sound]
'Props.C05_equations' depends on axioms: [propext, Classical.choice, Quot.sound]
'Props.C05_rejects_unroll_factor' depends on axioms: [propext, Classical.choice, Quot.sound]
'Props.C05_rejects_shapes' depends on axioms: [propext, Classical.choice, Quot.sound]
'Props.C05_rejects_empty' depends on axioms: [propext, Classical.choice, Quot.sound]
'Props.C06_lti_commutes' depends on axioms: [propext, Classical.choice, Quot.sound]
'Props.C06_lti_nonnegative' depends on axioms: [propext, Classical.choice, Quot.sound]
'Props.C06_lti_negative' depends on axioms: [propext, Classical.choice, Quot.sound]
'Props.C06_lti_out_of_range' depends on axioms: [propext, Classical.choice, Quot.sound]
'Props.C06_lpv_commutes' depends on axioms: [propext, Classical.choice, Quot.sound]
'Props.C06_lpv_out_of_range' depends on axioms: [propext, Classical.choice, Quot.sound]
'Props.C07_state_space_recursion_partial' depends on axioms: [propext, Classical.choice, Quot.sound]
'Props.C07_equations_partial' depends on axioms: [propext, Classical.choice, Quot.sound]
'Props.C07_commuting_partial' depends on axioms: [propext, Classical.choice, Quot.sound]
'Props.C07_exact' depends on axioms: [propext, Classical.choice, Quot.sound]
'Props.C07_exact_shared' depends on axioms: [propext, Classical.choice, Quot.sound]
'Props.C07_exact_commuting' depends on axioms: [propext, Classical.choice, Quot.sound]
'Props.C07_wrong_at_five' depends on axioms: [propext, Classical.choice, Quot.sound]
'Props.C07_wrong_at_nine' depends on axioms: [propext, Classical.choice, Quot.sound]
'Props.C07_rejects_unroll_factor' depends on axioms: [propext, Classical.choice, Quot.sound]
'Props.C07_rejects_shapes' depends on axioms: [propext, Classical.choice, Quot.sound]
'Props.C08_state_space_partial' depends on axioms: [propext, Classical.choice, Quot.sound]
'Props.C08_state_space_out_idx_partial' depends on axioms: [propext, Classical.choice, Quot.sound]
'Props.C08_rejects_C_and_out_idx' depends on axioms: [propext, Classical.choice, Quot.sound]
'Props.C08_ambiguous_input' depends on axioms: [propext, Classical.choice, Quot.sound]
'Props.C08_ambiguous_output' depends on axioms: [propext, Classical.choice, Quot.sound]
'Props.C09_state_space_partial' depends on axioms: [propext, Classical.choice, Quot.sound]
'Props.C09_state_space_out_idx_partial' depends on axioms: [propext, Classical.choice, Quot.sound]
'Props.C09_state_space_commuting_partial' depends on axioms: [propext, Classical.choice, Quot.sound]
'Props.C09_exact' depends on axioms: [propext, Classical.choice, Quot.sound]
'Props.C09_wrong_feedthrough' depends on axioms: [propext, Classical.choice, Quot.sound]
'Props.C09_wrong_output' depends on axioms: [propext, Classical.choice, Quot.sound]
'Props.C09_rejects_C_and_out_idx' depends on axioms: [propext, Classical.choice, Quot.sound]
'Props.C10_lti_stream_partial' depends on axioms: [propext, Classical.choice, Quot.sound]
'Props.C10_lti_split_partial' depends on axioms: [propext, Classical.choice, Quot.sound]
'Props.C10_lpv_stream_partial' depends on axioms: [propext, Classical.choice, Quot.sound]
'Props.C11_lfilter' depends on axioms: [propext, Classical.choice, Quot.sound]
'Props.C11_unique' depends on axioms: [propext, Classical.choice, Quot.sound]
'Props.C11_forms_agree' depends on axioms: [propext, Classical.choice, Quot.sound]
'Props.C11_rejects_form' depends on axioms: [propext, Classical.choice, Quot.sound]
'Props.C12_lfilter_partial' depends on axioms: [propext, Classical.choice, Quot.sound]
'Props.C12_reduces' depends on axioms: [propext, Classical.choice, Quot.sound]
'Props.C12_conjugated_numerator' depends on axioms: [propext, Classical.choice, Quot.sound]
'Props.C12_conjugated_denominator' depends on axioms: [propext, Classical.choice, Quot.sound]
'Props.C12_forms_disagree' depends on axioms: [propext, Classical.choice, Quot.sound]
'Props.C13_tdf2' depends on axioms: [propext, Classical.choice, Quot.sound]
'Props.C13_tdf2_complex' depends on axioms: [propext, Classical.choice, Quot.sound]
'Props.C14_df2' depends on axioms: [propext, Classical.choice, Quot.sound]
'Props.C15_lfiltic_partial' depends on axioms: [propext, Classical.choice, Quot.sound]
'Props.C15_one_tap' depends on axioms: [propext, Classical.choice, Quot.sound]
'Props.C15_no_poles' depends on axioms: [propext, Classical.choice, Quot.sound]
'Props.C16_tdf2_partial' depends on axioms: [propext, Classical.choice, Quot.sound]
'Props.C16_df2_partial' depends on axioms: [propext, Classical.choice, Quot.sound]
'Props.C16_df2_long_numerator' depends on axioms: [propext, Classical.choice, Quot.sound]
'Props.C16_tdf2_complex' depends on axioms: [propext, Classical.choice, Quot.sound]
'Props.C16_df2_returns_iff' depends on axioms: [propext, Classical.choice, Quot.sound]
'Props.C16_tdf2_returns_iff' depends on axioms: [propext, Classical.choice, Quot.sound]
'Props.C17_direct' depends on axioms: [propext, Classical.choice, Quot.sound]
'Props.C17_direct_state_partial' depends on axioms: [propext, Classical.choice, Quot.sound]
'Props.C17_transposed_partial' depends on axioms: [propext, Classical.choice, Quot.sound]
'Props.C17_transposed_state_partial' depends on axioms: [propext, Classical.choice, Quot.sound]
'Props.C17_one_tap_transposed' depends on axioms: [propext, Classical.choice, Quot.sound]
'Props.C17_one_tap_direct_state' depends on axioms: [propext, Classical.choice, Quot.sound]
'Props.C17_short_transposed' depends on axioms: [propext, Classical.choice, Quot.sound]
'Props.C17_short_transposed_shape' depends on axioms: [propext, Classical.choice, Quot.sound]
'Props.C18_lfilter_df2' depends on axioms: [propext, Classical.choice, Quot.sound]
'Props.C18_lfilter_tdf2' depends on axioms: [propext, Classical.choice, Quot.sound]
'Props.C18_fir_direct_partial' depends on axioms: [propext, Classical.choice, Quot.sound]
'Props.C18_fir_transposed_partial' depends on axioms: [propext, Classical.choice, Quot.sound]
'Props.C18_comb_partial' depends on axioms: [propext, Classical.choice, Quot.sound]
'Props.C18_lpv_fir_direct' depends on axioms: [propext, Classical.choice, Quot.sound]
'Props.C18_lpv_fir_transposed_partial' depends on axioms: [propext, Classical.choice, Quot.sound]
'Props.C18_lpv_allpole_direct_partial' depends on axioms: [propext, Classical.choice, Quot.sound]
'Props.C18_lpv_allpole_transposed_partial' depends on axioms: [propext, Classical.choice, Quot.sound]
'Props.C18_lpv_lfilter_df2_partial' depends on axioms: [propext, Classical.choice, Quot.sound]
'Props.C18_lpv_lfilter_tdf2_partial' depends on axioms: [propext, Classical.choice, Quot.sound]
'Props.C18_lpv_lfilter_torchlpc_partial' depends on axioms: [propext, Classical.choice, Quot.sound]
'Props.C19_with_state_partial' depends on axioms: [propext, Classical.choice, Quot.sound]
'Props.C19_without_state_partial' depends on axioms: [propext, Classical.choice, Quot.sound]
'Props.C19_delay_one_partial' depends on axioms: [propext, Classical.choice, Quot.sound]
'Props.C19_short_signal' depends on axioms: [propext, Classical.choice, Quot.sound]
'Props.C19_no_extension' depends on axioms: [propext, Classical.choice, Quot.sound]
'Props.C19_delay_zero' depends on axioms: [propext, Classical.choice, Quot.sound]
'Props.C19_single_coefficient' depends on axioms: [propext, Classical.choice, Quot.sound]
'Props.C20_tdf2_partial' depends on axioms: [propext, Classical.choice, Quot.sound]
'Props.C20_df2_partial' depends on axioms: [propext, Classical.choice, Quot.sound]
'Props.C20_padding' depends on axioms: [propext, Quot.sound]
'Props.C20_too_short' depends on axioms: [propext, Classical.choice, Quot.sound]
'Props.C20_tdf2_forward_backward' depends on axioms: [propext, Classical.choice, Quot.sound]
'Props.C20_df2_forward_backward' depends on axioms: [propext, Classical.choice, Quot.sound]
'Props.C20_zero_phase_tdf2' depends on axioms: [propext, Classical.choice, Quot.sound]
'Props.C20_zero_phase_df2' depends on axioms: [propext, Classical.choice, Quot.sound]
'Props.C20_df1_raises' depends on axioms: [propext, Classical.choice, Quot.sound]
'Props.C20_df2_long_numerator' depends on axioms: [propext, Classical.choice, Quot.sound]
'Props.C20_three_axes_merged' depends on axioms: [propext, Classical.choice, Quot.sound]
'Props.C20_three_axes_raises' depends on axioms: [propext, Classical.choice, Quot.sound]
'Props.C21_polydiv_partial' depends on axioms: [propext, Classical.choice, Quot.sound]
'Props.C21_short_dividend' depends on axioms: [propext, Classical.choice, Quot.sound]
'Props.C21_flat_dividend' depends on axioms: [propext, Classical.choice, Quot.sound]
'Props.C22_given_basis_partial' depends on axioms: [propext, Classical.choice, Quot.sound]
'Props.C22_out_idx' depends on axioms: [propext, Classical.choice, Quot.sound]
'Props.C22_diagonal_partial' depends on axioms: [propext, Classical.choice, Quot.sound]
'Props.C22_from_matrix_partial' depends on axioms: [propext, Classical.choice, Quot.sound]
'Props.C22_from_matrix_out_idx_partial' depends on axioms: [propext, Classical.choice, Quot.sound]
'Props.C22_repeated_eigenvalue' depends on axioms: [propext, Classical.choice, Quot.sound]
'Props.C22_from_matrix_exact' depends on axioms: [propext, Classical.choice, Quot.sound]
'Props.C22_rejects_batched_eigenvalues' depends on axioms: [propext, Classical.choice, Quot.sound]
'Props.C22_real_readout' depends on axioms: [propext, Classical.choice, Quot.sound]
'Props.C23_short_partial' depends on axioms: [propext, Classical.choice, Quot.sound]
'Props.C23_long_partial' depends on axioms: [propext, Classical.choice, Quot.sound]
'Props.C23_complex_taps' depends on axioms: [propext, Classical.choice, Quot.sound]
'Props.C23_zero_pole' depends on axioms: [propext, Classical.choice, Quot.sound]
'Props.C23_repeated_pole' depends on axioms: [propext, Classical.choice, Quot.sound]
'Props.C23_short_signal' depends on axioms: [propext, Classical.choice, Quot.sound]
'Props.C23_flat_numerator' depends on axioms: [propext, Classical.choice, Quot.sound]
'Props.C24_companion' depends on axioms: [propext, Classical.choice, Quot.sound]
'Props.C24_companion_batched' depends on axioms: [propext, Classical.choice, Quot.sound]
'Props.C24_companion_time_varying' depends on axioms: [propext, Classical.choice, Quot.sound]
'Props.C24_companion_recursion' depends on axioms: [propext, Classical.choice, Quot.sound]
'Props.C24_eigenvectors' depends on axioms: [propext, Classical.choice, Quot.sound]
'Props.C24_vandermonde_rejects_batches' depends on axioms: [propext]
'Props.C24_eigenvectors_single' depends on axioms: [propext, Classical.choice, Quot.sound]
'Props.C24_vandermonde' depends on axioms: [propext, Classical.choice, Quot.sound]
'Props.C24_companion_rejects_scalar' depends on axioms: [propext]
'Props.C25_find_eigenvectors_partial' depends on axioms: [propext, Classical.choice, Quot.sound]
'Props.C25_find_eigenvectors_batch_partial' depends on axioms: [propext, Classical.choice, Quot.sound]
'Props.C25_zero_first_component' depends on axioms: [propext, Classical.choice, Quot.sound]
'Props.C25_zero_first_component_batch' depends on axioms: [propext, Classical.choice, Quot.sound]
'Props.C25_diagonal' depends on axioms: [propext, Classical.choice, Quot.sound]
'Props.C26_full' depends on axioms: [propext, Classical.choice, Quot.sound]
'Props.C26_full_unbatched' depends on axioms: [propext, Classical.choice, Quot.sound]
'Props.C26_discard_end_partial' depends on axioms: [propext, Classical.choice, Quot.sound]
'Props.C26_discard_end_unbatched_partial' depends on axioms: [propext, Classical.choice, Quot.sound]
'Props.C26_one_column' depends on axioms: [propext, Classical.choice, Quot.sound]
'Props.C27_direct' depends on axioms: [propext, Classical.choice, Quot.sound]
'Props.C27_direct_state' depends on axioms: [propext, Classical.choice, Quot.sound]
'Props.C27_transposed_partial' depends on axioms: [propext, Classical.choice, Quot.sound]
'Props.C27_transposed_state_partial' depends on axioms: [propext, Classical.choice, Quot.sound]
'Props.C27_one_tap_transposed' depends on axioms: [propext, Classical.choice, Quot.sound]
'Props.C27_one_tap_one_sample' depends on axioms: [propext, Classical.choice, Quot.sound]
'Props.C27_short_transposed' depends on axioms: [propext, Classical.choice, Quot.sound]
'Props.C27_short_transposed_shape' depends on axioms: [propext, Classical.choice, Quot.sound]
'Props.C27_transposed_complex' depends on axioms: [propext, Classical.choice, Quot.sound]
'Props.C28_direct' depends on axioms: [propext, Classical.choice, Quot.sound]
'Props.C28_direct_state_partial' depends on axioms: [propext, Classical.choice, Quot.sound]
'Props.C28_transposed_partial' depends on axioms: [propext, Classical.choice, Quot.sound]
'Props.C28_transposed_state_partial' depends on axioms: [propext, Classical.choice, Quot.sound]
'Props.C28_short_transposed' depends on axioms: [propext, Classical.choice, Quot.sound]
'Props.C28_contract' depends on axioms: [propext, Classical.choice, Quot.sound]
'Props.C28_transposed_complex' depends on axioms: [propext, Classical.choice, Quot.sound]
'Props.C29_fir_after_allpole' depends on axioms: [propext, Classical.choice, Quot.sound]
'Props.C29_allpole_after_fir' depends on axioms: [propext, Classical.choice, Quot.sound]
'Props.C29_transposed_allpole_after_fir_partial' depends on axioms: [propext, Classical.choice, Quot.sound]
'Props.C29_transposed_fir_after_allpole_partial' depends on axioms: [propext, Classical.choice, Quot.sound]
'Props.C29_same_delay_line' depends on axioms: [propext, Classical.choice, Quot.sound]
'Props.C30_ssm_df2_partial' depends on axioms: [propext, Classical.choice, Quot.sound]
'Props.C30_ssm_tdf2_partial' depends on axioms: [propext, Classical.choice, Quot.sound]
'Props.C30_ssm_df1_partial' depends on axioms: [propext, Classical.choice, Quot.sound]
'Props.C30_ssm_tdf1_partial' depends on axioms: [propext, Classical.choice, Quot.sound]
'Props.C30_torchlpc_df2_partial' depends on axioms: [propext, Classical.choice, Quot.sound]
'Props.C30_torchlpc_df1' depends on axioms: [propext, Classical.choice, Quot.sound]
'Props.C30_torchlpc_tdf1_partial' depends on axioms: [propext, Classical.choice, Quot.sound]
'Props.C30_agree_df2_partial' depends on axioms: [propext, Classical.choice, Quot.sound]
'Props.C30_agree_df1_partial' depends on axioms: [propext, Classical.choice, Quot.sound]
'Props.C30_rejects' depends on axioms: [propext, Classical.choice, Quot.sound]
'Props.C30_tdf1_differ' depends on axioms: [propext, Classical.choice, Quot.sound]
'Props.C30_square' depends on axioms: [propext, Classical.choice, Quot.sound]
'Props.C30_square_df2' depends on axioms: [propext, Classical.choice, Quot.sound]
'Props.C30_unroll' depends on axioms: [propext, Classical.choice, Quot.sound]
'Props.C30_exact_df2' depends on axioms: [propext, Classical.choice, Quot.sound]
'Props.C30_exact_tdf2' depends on axioms: [propext, Classical.choice, Quot.sound]
'Props.C30_exact_df1' depends on axioms: [propext, Classical.choice, Quot.sound]
'Props.C30_exact_tdf1' depends on axioms: [propext, Classical.choice, Quot.sound]
'Props.C30_tdf2_complex' depends on axioms: [propext, Classical.choice, Quot.sound]
'Props.C31_linear_recurrence' depends on axioms: [propext, Classical.choice, Quot.sound]
'Props.C31_state_space_recursion_partial' depends on axioms: [propext, Classical.choice, Quot.sound]
'Props.C31_state_space_partial' depends on axioms: [propext, Classical.choice, Quot.sound]
'Props.C31_fir_direct' depends on axioms: [propext, Classical.choice, Quot.sound]
'Props.C31_fir_direct_state_partial' depends on axioms: [propext, Classical.choice, Quot.sound]
'Props.C31_fir_transposed_partial' depends on axioms: [propext, Classical.choice, Quot.sound]
'Props.C31_fir_transposed_state_partial' depends on axioms: [propext, Classical.choice, Quot.sound]
'Props.C31_lfilter_df2_partial' depends on axioms: [propext, Classical.choice, Quot.sound]
'Props.C31_lfilter_tdf2_partial' depends on axioms: [propext, Classical.choice, Quot.sound]
'Props.C31_lfilter_df1_partial' depends on axioms: [propext, Classical.choice, Quot.sound]
'Props.C31_lfilter_tdf1_partial' depends on axioms: [propext, Classical.choice, Quot.sound]
'Props.C31_lfilter_torchlpc' depends on axioms: [propext, Classical.choice, Quot.sound]
'Props.C31_exact' depends on axioms: [propext, Classical.choice, Quot.sound]
'Props.C31_unroll' depends on axioms: [propext, Classical.choice, Quot.sound]
'Props.C31_square' depends on axioms: [propext, Classical.choice, Quot.sound]
'Props.C31_df1_complex' depends on axioms: [propext, Classical.choice, Quot.sound]
'Props.C32_linear_recurrence' depends on axioms: [propext, Classical.choice, Quot.sound]
'Props.C32_lpv_linear_recurrence' depends on axioms: [propext, Classical.choice, Quot.sound]
'Props.C32_state_space_recursion' depends on axioms: [propext, Classical.choice, Quot.sound]
'Props.C32_lpv_state_space_recursion' depends on axioms: [propext, Classical.choice, Quot.sound]
'Props.C32_state_space' depends on axioms: [propext, Classical.choice, Quot.sound]
'Props.C32_lpv_state_space' depends on axioms: [propext, Classical.choice, Quot.sound]
'Props.C32_fir_partial' depends on axioms: [propext, Classical.choice, Quot.sound]
'Props.C32_fir_direct_partial' depends on axioms: [propext, Classical.choice, Quot.sound]
'Props.C32_fir_transposed_partial' depends on axioms: [propext, Classical.choice, Quot.sound]
'Props.C32_lpv_fir_direct' depends on axioms: [propext, Classical.choice, Quot.sound]
'Props.C32_lpv_fir_direct_state' depends on axioms: [propext, Classical.choice, Quot.sound]
'Props.C32_lpv_fir_transposed_partial' depends on axioms: [propext, Classical.choice, Quot.sound]
'Props.C32_lpv_fir_transposed_state_partial' depends on axioms: [propext, Classical.choice, Quot.sound]
'Props.C32_lfilter_df2' depends on axioms: [propext, Classical.choice, Quot.sound]
'Props.C32_lfilter_tdf2' depends on axioms: [propext, Classical.choice, Quot.sound]
'Props.C32_lfilter_df1' depends on axioms: [propext, Classical.choice, Quot.sound]
'Props.C32_lfilter_tdf1' depends on axioms: [propext, Classical.choice, Quot.sound]
'Props.C32_lpv_lfilter_df2_partial' depends on axioms: [propext, Classical.choice, Quot.sound]
'Props.C32_lpv_lfilter_tdf2_partial' depends on axioms: [propext, Classical.choice, Quot.sound]
'Props.C32_lpv_lfilter_df1' depends on axioms: [propext, Classical.choice, Quot.sound]
'Props.C32_lpv_lfilter_tdf1' depends on axioms: [propext, Classical.choice, Quot.sound]
'Props.C32_lpv_lfilter_torchlpc_partial' depends on axioms: [propext, Classical.choice, Quot.sound]
'Props.C32_lpv_allpole' depends on axioms: [propext, Classical.choice, Quot.sound]
'Props.C32_lpv_allpole_state_partial' depends on axioms: [propext, Classical.choice, Quot.sound]
'Props.C32_lpv_lfilter_torchlpc_df1' depends on axioms: [propext, Classical.choice, Quot.sound]
'Props.C32_lpv_lfilter_torchlpc_tdf1_partial' depends on axioms: [propext, Classical.choice, Quot.sound]
'Props.C32_lpv_allpole_transposed_partial' depends on axioms: [propext, Classical.choice, Quot.sound]
'Props.C32_lpv_allpole_transposed_state_partial' depends on axioms: [propext, Classical.choice, Quot.sound]
'Props.C32_comb_filter_partial' depends on axioms: [propext, Classical.choice, Quot.sound]
'Props.C32_comb_filter_one' depends on axioms: [propext, Classical.choice, Quot.sound]
'Props.C32_filtfilt_tdf2_partial' depends on axioms: [propext, Classical.choice, Quot.sound]
'Props.C32_filtfilt_df2_partial' depends on axioms: [propext, Classical.choice, Quot.sound]
'Props.C32_diag_state_space_partial' depends on axioms: [propext, Classical.choice, Quot.sound]
'Props.C32_diag_lfilter_df2_partial' depends on axioms: [propext, Classical.choice, Quot.sound]
'Props.C32_diag_lfilter_tdf2_partial' depends on axioms: [propext, Classical.choice, Quot.sound]
'Props.C33_linear_recurrence' depends on axioms: [propext, Classical.choice, Quot.sound]
'Props.C33_lpv_linear_recurrence' depends on axioms: [propext, Classical.choice, Quot.sound]
'Props.C33_state_space_recursion' depends on axioms: [propext, Classical.choice, Quot.sound]
'Props.C33_lpv_state_space_recursion' depends on axioms: [propext, Classical.choice, Quot.sound]
'Props.C33_state_space' depends on axioms: [propext, Classical.choice, Quot.sound]
'Props.C33_lpv_state_space' depends on axioms: [propext, Classical.choice, Quot.sound]
'Props.C33_fir_partial' depends on axioms: [propext, Classical.choice, Quot.sound]
'Props.C33_fir_direct_partial' depends on axioms: [propext, Classical.choice, Quot.sound]
'Props.C33_fir_transposed_partial' depends on axioms: [propext, Classical.choice, Quot.sound]
'Props.C33_lpv_fir_direct' depends on axioms: [propext, Classical.choice, Quot.sound]
'Props.C33_lpv_fir_direct_state' depends on axioms: [propext, Classical.choice, Quot.sound]
'Props.C33_lpv_fir_transposed_partial' depends on axioms: [propext, Classical.choice, Quot.sound]
'Props.C33_lpv_fir_transposed_state_partial' depends on axioms: [propext, Classical.choice, Quot.sound]
'Props.C33_lfilter_df2' depends on axioms: [propext, Classical.choice, Quot.sound]
'Props.C33_lfilter_tdf2' depends on axioms: [propext, Classical.choice, Quot.sound]
'Props.C33_lfilter_df1' depends on axioms: [propext, Classical.choice, Quot.sound]
'Props.C33_lfilter_tdf1' depends on axioms: [propext, Classical.choice, Quot.sound]
'Props.C33_lpv_lfilter_df2_partial' depends on axioms: [propext, Classical.choice, Quot.sound]
'Props.C33_lpv_lfilter_tdf2_partial' depends on axioms: [propext, Classical.choice, Quot.sound]
'Props.C33_lpv_lfilter_df1' depends on axioms: [propext, Classical.choice, Quot.sound]
'Props.C33_lpv_lfilter_tdf1' depends on axioms: [propext, Classical.choice, Quot.sound]
'Props.C33_lpv_lfilter_torchlpc_partial' depends on axioms: [propext, Classical.choice, Quot.sound]
'Props.C33_lpv_allpole' depends on axioms: [propext, Classical.choice, Quot.sound]
'Props.C33_lpv_allpole_state_partial' depends on axioms: [propext, Classical.choice, Quot.sound]
'Props.C33_lpv_lfilter_torchlpc_df1' depends on axioms: [propext, Classical.choice, Quot.sound]
'Props.C33_lpv_lfilter_torchlpc_tdf1_partial' depends on axioms: [propext, Classical.choice, Quot.sound]
'Props.C33_lpv_allpole_transposed_partial' depends on axioms: [propext, Classical.choice, Quot.sound]
'Props.C33_lpv_allpole_transposed_state_partial' depends on axioms: [propext, Classical.choice, Quot.sound]
'Props.C33_comb_filter_partial' depends on axioms: [propext, Classical.choice, Quot.sound]
'Props.C33_comb_filter_one' depends on axioms: [propext, Classical.choice, Quot.sound]
'Props.C33_diag_state_space_partial' depends on axioms: [propext, Classical.choice, Quot.sound]
'Props.C33_diag_lfilter_df2_partial' depends on axioms: [propext, Classical.choice, Quot.sound]
'Props.C33_diag_lfilter_tdf2_partial' depends on axioms: [propext, Classical.choice, Quot.sound]
'Props.C33_lpv_linear_recurrence_coeffs' depends on axioms: [propext, Classical.choice, Quot.sound]
'Props.C33_lpv_state_space_coeffs_partial' depends on axioms: [propext, Classical.choice, Quot.sound]
'Props.C33_lpv_lfilter_df2_coeffs_partial' depends on axioms: [propext, Classical.choice, Quot.sound]
'Props.C33_lpv_lfilter_tdf2_coeffs_partial' depends on axioms: [propext, Classical.choice, Quot.sound]
'Props.C33_lpv_state_space_coeffs' depends on axioms: [propext, Classical.choice, Quot.sound]
'Props.C33_lpv_lfilter_df2_coeffs_same_unroll_partial' depends on axioms: [propext, Classical.choice, Quot.sound]
'Props.C33_lpv_lfilter_tdf2_coeffs_same_unroll_partial' depends on axioms: [propext, Classical.choice, Quot.sound]
'Props.C34_linear_recurrence' depends on axioms: [propext, Classical.choice, Quot.sound]
'Props.C34_lpv_linear_recurrence' depends on axioms: [propext, Classical.choice, Quot.sound]
'Props.C34_state_space_recursion' depends on axioms: [propext, Classical.choice, Quot.sound]
'Props.C34_lpv_state_space_recursion' depends on axioms: [propext, Classical.choice, Quot.sound]
'Props.C34_lpv_state_space_recursion_unroll_partial' depends on axioms: [propext, Classical.choice, Quot.sound]
'Props.C34_state_space' depends on axioms: [propext, Classical.choice, Quot.sound]
'Props.C34_lpv_state_space' depends on axioms: [propext, Classical.choice, Quot.sound]
'Props.C34_lpv_state_space_unroll_partial' depends on axioms: [propext, Classical.choice, Quot.sound]
'Props.C34_lfilter_df2' depends on axioms: [propext, Classical.choice, Quot.sound]
'Props.C34_lfilter_tdf2' depends on axioms: [propext, Classical.choice, Quot.sound]
'Props.C34_lfilter_df1' depends on axioms: [propext, Classical.choice, Quot.sound]
'Props.C34_lfilter_tdf1' depends on axioms: [propext, Classical.choice, Quot.sound]
'Props.C34_lpv_lfilter_df2_partial' depends on axioms: [propext, Classical.choice, Quot.sound]
'Props.C34_lpv_lfilter_df2_unroll_partial' depends on axioms: [propext, Classical.choice, Quot.sound]
'Props.C34_lpv_lfilter_tdf2_partial' depends on axioms: [propext, Classical.choice, Quot.sound]
'Props.C34_lpv_lfilter_tdf2_unroll_partial' depends on axioms: [propext, Classical.choice, Quot.sound]
'Props.C34_lpv_lfilter_df1' depends on axioms: [propext, Classical.choice, Quot.sound]
'Props.C34_lpv_lfilter_df1_unroll_partial' depends on axioms: [propext, Classical.choice, Quot.sound]
'Props.C34_lpv_lfilter_tdf1' depends on axioms: [propext, Classical.choice, Quot.sound]
'Props.C34_lpv_lfilter_tdf1_unroll_partial' depends on axioms: [propext, Classical.choice, Quot.sound]
'Props.C34_lpv_lfilter_torchlpc_partial' depends on axioms: [propext, Classical.choice, Quot.sound]
'Props.C34_lpv_lfilter_torchlpc_df1' depends on axioms: [propext, Classical.choice, Quot.sound]
'Props.C34_lpv_lfilter_torchlpc_tdf1_partial' depends on axioms: [propext, Classical.choice, Quot.sound]
'Props.C34_fir_partial' depends on axioms: [propext, Classical.choice, Quot.sound]
'Props.C34_fir_direct_partial' depends on axioms: [propext, Classical.choice, Quot.sound]
'Props.C34_fir_transposed_partial' depends on axioms: [propext, Classical.choice, Quot.sound]
'Props.C34_lpv_fir_direct' depends on axioms: [propext, Classical.choice, Quot.sound]
'Props.C34_lpv_fir_direct_state' depends on axioms: [propext, Classical.choice, Quot.sound]
'Props.C34_lpv_fir_transposed_partial' depends on axioms: [propext, Classical.choice, Quot.sound]
'Props.C34_lpv_fir_transposed_state_partial' depends on axioms: [propext, Classical.choice, Quot.sound]
'Props.C34_lpv_allpole' depends on axioms: [propext, Classical.choice, Quot.sound]
'Props.C34_lpv_allpole_state_partial' depends on axioms: [propext, Classical.choice, Quot.sound]
'Props.C34_lpv_allpole_transposed_partial' depends on axioms: [propext, Classical.choice, Quot.sound]
'Props.C34_lpv_allpole_transposed_state_partial' depends on axioms: [propext, Classical.choice, Quot.sound]
'Props.C34_comb_filter_partial' depends on axioms: [propext, Classical.choice, Quot.sound]
'Props.C34_comb_filter_one' depends on axioms: [propext, Classical.choice, Quot.sound]
'Props.C34_filtfilt_tdf2_partial' depends on axioms: [propext, Classical.choice, Quot.sound]
'Props.C34_filtfilt_df2_partial' depends on axioms: [propext, Classical.choice, Quot.sound]
'Props.C35_tangent' depends on axioms: [propext, Classical.choice, Quot.sound]
'Props.C35_backward_shared_partial' depends on axioms: [propext, Classical.choice, Quot.sound]
'Props.C35_backward_batched_partial' depends on axioms: [propext, Classical.choice, Quot.sound]
'Props.C35_backward_single_partial' depends on axioms: [propext, Classical.choice, Quot.sound]
'Props.C35_jvp' depends on axioms: [propext, Classical.choice, Quot.sound]
'Props.C35_agree_partial' depends on axioms: [propext, Classical.choice, Quot.sound]
'Props.C35_empty_fails' depends on axioms: [propext, Classical.choice, Quot.sound]
'Props.C35_cpu_partial' depends on axioms: [propext, Classical.choice, Quot.sound]
'Props.C36_tangent' depends on axioms: [propext, Classical.choice, Quot.sound]
'Props.C36_backward_shared_partial' depends on axioms: [propext, Classical.choice, Quot.sound]
'Props.C36_backward_batched_partial' depends on axioms: [propext, Classical.choice, Quot.sound]
'Props.C36_jvp' depends on axioms: [propext, Classical.choice, Quot.sound]
'Props.C36_agree_partial' depends on axioms: [propext, Classical.choice, Quot.sound]
'Props.C36_empty_fails' depends on axioms: [propext, Classical.choice, Quot.sound]
'Props.C36_cpu_partial' depends on axioms: [propext, Classical.choice, Quot.sound]
'Props.C37_backward_shared_partial' depends on axioms: [propext, Classical.choice, Quot.sound]
'Props.C37_backward_batched_partial' depends on axioms: [propext, Classical.choice, Quot.sound]
'Props.C37_jvp' depends on axioms: [propext, Classical.choice, Quot.sound]
'Props.C37_agree_partial' depends on axioms: [propext, Classical.choice, Quot.sound]
'Props.C37_empty_fails' depends on axioms: [propext, Classical.choice, Quot.sound]
'Props.C37_cpu_partial' depends on axioms: [propext, Classical.choice, Quot.sound]
'Props.C38_sequential_case' depends on axioms: [propext, Classical.choice, Quot.sound]
'Props.C38_alternating_case' depends on axioms: [propext, Classical.choice, Quot.sound]
'Props.C38_lti_recur' depends on axioms: [propext, Classical.choice, Quot.sound]
'Props.C38_lti_recurN' depends on axioms: [propext, Classical.choice, Quot.sound]
'Props.C38_recurN' depends on axioms: [propext, Classical.choice, Quot.sound]
'Props.C38_recurN_batched' depends on axioms: [propext, Classical.choice, Quot.sound]
'Props.C39_lti_recur' depends on axioms: [propext, Classical.choice, Quot.sound]
'Props.C39_lti_recurN_partial' depends on axioms: [propext, Classical.choice, Quot.sound]
'Props.C39_recurN_partial' depends on axioms: [propext, Classical.choice, Quot.sound]
'Props.C39_lti_recurN_out_of_bounds' depends on axioms: [propext, Classical.choice, Quot.sound]
'Props.C39_recurN_out_of_bounds_shared' depends on axioms: [propext, Classical.choice, Quot.sound]
'Props.C39_recurN_out_of_bounds_batched' depends on axioms: [propext, Classical.choice, Quot.sound]
'Props.C39_lti_recurN_out_of_bounds_rank4' depends on axioms: [propext]
'Props.C40_left_case' depends on axioms: [propext, Quot.sound]
'Props.C40_right_case' depends on axioms: [propext]
'Props.C40_assoc_scalar' depends on axioms: [propext]
'Props.C40_assoc_two' depends on axioms: [propext]
'Props.C40_assoc_any' depends on axioms: [propext, Classical.choice, Quot.sound]
'Props.C40_bracketing' depends on axioms: [propext, Quot.sound]
'Props.C40_lti_recur' depends on axioms: [propext, Classical.choice, Quot.sound]
'Props.C40_lti_recur2' depends on axioms: [propext, Classical.choice, Quot.sound]
'Props.C40_recur2' depends on axioms: [propext, Classical.choice, Quot.sound]
'Props.C40_host_two' depends on axioms: [propext, Classical.choice, Quot.sound]
'Props.C40_host_any' depends on axioms: [propext, Classical.choice, Quot.sound]
'Props.C40_same' depends on axioms: [propext, Classical.choice, Quot.sound]
'Props.C40_longer_sequence' depends on axioms: [propext, Classical.choice, Quot.sound]
'Props.C41_reduce_contract' depends on axioms: [propext, Classical.choice, Quot.sound]
'Props.C41_cpu_extension' depends on axioms: [propext, Classical.choice, Quot.sound]
'Props.C41_cuda_extension' depends on axioms: [propext, Classical.choice, Quot.sound]
'Props.C41_lti_recursion_partial' depends on axioms: [propext, Classical.choice, Quot.sound]
'Props.C41_lti_state_space_partial' depends on axioms: [propext, Classical.choice, Quot.sound]
'Props.C41_lti_lfilter_partial' depends on axioms: [propext, Classical.choice, Quot.sound]
'Props.C41_lpv_recursion_partial' depends on axioms: [propext, Classical.choice, Quot.sound]
'Props.C41_lpv_state_space_partial' depends on axioms: [propext, Classical.choice, Quot.sound]
'Props.C41_lpv_lfilter_partial' depends on axioms: [propext, Classical.choice, Quot.sound]
'Props.C41_lti_state_space_same_partial' depends on axioms: [propext, Classical.choice, Quot.sound]
'Props.C41_diag_state_space_partial' depends on axioms: [propext, Classical.choice, Quot.sound]
'Props.C41_cpu_cuda' depends on axioms: [propext, Classical.choice, Quot.sound]
'Props.C41_cpu_only_extension_fails' depends on axioms: [propext, Classical.choice, Quot.sound]
'Props.C41_helion_alone_fails' depends on axioms: [propext, Classical.choice, Quot.sound]
'Props.C41_pararnn_alone_fails' depends on axioms: [propext, Classical.choice, Quot.sound]
'Props.C41_lpv_helion_alone_fails' depends on axioms: [propext, Classical.choice, Quot.sound]
'Props.C41_matrix_recurrence_cuda_fails' depends on axioms: [propext, Quot.sound]
'Props.C41_out_of_bounds' depends on axioms: [propext, Classical.choice, Quot.sound]
'Props.C41_empty_signal' depends on axioms: [propext, Classical.choice, Quot.sound]
'Props.C41_unroll_ignored' depends on axioms: [propext, Classical.choice, Quot.sound]
'Props.C42_lti_recur' depends on axioms: [propext, Classical.choice, Quot.sound]
'Props.C42_lti_recur_cuda' depends on axioms: [propext, Classical.choice, Quot.sound]
'Props.C42_lti_recurN_partial' depends on axioms: [propext, Classical.choice, Quot.sound]
'Props.C42_lti_recur2_partial' depends on axioms: [propext, Classical.choice, Quot.sound]
'Props.C42_recurN_partial' depends on axioms: [propext, Classical.choice, Quot.sound]
'Props.C42_recur2_partial' depends on axioms: [propext, Classical.choice, Quot.sound]
'Props.C42_lti_recur2_cuda_partial' depends on axioms: [propext, Classical.choice, Quot.sound]
'Props.C42_recur2_cuda_partial' depends on axioms: [propext, Classical.choice, Quot.sound]
'Props.C42_lti_recurN_predicts' depends on axioms: [propext, Classical.choice, Quot.sound]
'Props.C42_lti_recur2_predicts' depends on axioms: [propext, Classical.choice, Quot.sound]
'Props.C42_recurN_predicts' depends on axioms: [propext, Classical.choice, Quot.sound]
'Props.C42_recur2_predicts' depends on axioms: [propext, Classical.choice, Quot.sound]
'Props.C42_hl_lti_recurN_predicts' depends on axioms: [propext, Classical.choice, Quot.sound]
'Props.C42_hl_recurN_predicts' depends on axioms: [propext, Classical.choice, Quot.sound]
'Props.C42_more_matrices' depends on axioms: [propext]
'Props.C42_longer_sequence' depends on axioms: [propext]
'Props.C42_recur2_any_dimension' depends on axioms: [propext]
'Props.C43_pole' depends on axioms: [propext, Classical.choice, Quot.sound]
'Props.C43_cspline_partial' depends on axioms: [propext, Classical.choice, Quot.sound]
'Props.C43_first_sample' depends on axioms: [propext, Classical.choice, Quot.sound]
'Props.C43_forms_agree' depends on axioms: [propext, Classical.choice, Quot.sound]
'Props.C43_first_sample_bound' depends on axioms: [propext, Classical.choice, Quot.sound]
'Props.C43_first_sample_not' depends on axioms: [propext, Classical.choice, Quot.sound]
'Props.C43_case' depends on axioms: [propext, Classical.choice, Quot.sound]
'Props.C44_cubic_spline_partial' depends on axioms: [propext, Classical.choice, Quot.sound]
'Props.C44_factor_one' depends on axioms: [propext, Classical.choice, Quot.sound]
'Props.C44_factors' depends on axioms: [propext, Classical.choice, Quot.sound]
'Props.C44_factor_49' depends on axioms: [propext, Classical.choice, Quot.sound]
'Props.C44_arange_length' depends on axioms: [propext, Classical.choice, Quot.sound]
'Props.C44_arange_scale' depends on axioms: [propext, Classical.choice, Quot.sound]
'Props.C44_wrong_length' depends on axioms: [propext, Classical.choice, Quot.sound]
'Props.C44_failing_factors' depends on axioms: [propext, Classical.choice, Quot.sound]
'Props.C44_good_factors' depends on axioms: [propext, Classical.choice, Quot.sound]
'Props.C44_two_samples' depends on axioms: [propext, Classical.choice, Quot.sound]
'Props.C44_case' depends on axioms: [propext, Classical.choice, Quot.sound]
'Props.C45_pointwise' depends on axioms: [propext, Classical.choice, Quot.sound]
'Props.C45_first_entries_partial' depends on axioms: [propext, Classical.choice, Quot.sound]
'Props.C45_all_iterations_partial' depends on axioms: [propext, Classical.choice, Quot.sound]
'Props.C45_affine_partial' depends on axioms: [propext, Classical.choice, Quot.sound]
'Props.C45_exact_guess_partial' depends on axioms: [propext, Classical.choice, Quot.sound]
'Props.C45_intermediate' depends on axioms: [propext, Classical.choice, Quot.sound]
'Props.C45_no_iteration' depends on axioms: [propext, Classical.choice, Quot.sound]
'Props.C45_too_many_iterations' depends on axioms: [propext, Classical.choice, Quot.sound]
'Props.C45_case' depends on axioms: [propext, Classical.choice, Quot.sound]
'Props.C45_last_entry_not' depends on axioms: [propext, Classical.choice, Quot.sound]
'Props.C46_chain' depends on axioms: [propext]
'Props.C46_empty' does not depend on any axioms
'Props.C46_raises' depends on axioms: [propext, Quot.sound]
'Props.C46_append' depends on axioms: [propext, Quot.sound]
'Props.C47_lti' depends on axioms: [propext, Classical.choice, Quot.sound]
'Props.C47_lpv' depends on axioms: [propext, Classical.choice, Quot.sound]
'Props.C47_same' depends on axioms: [propext, Classical.choice, Quot.sound]
'Props.C47_tiler_cases' depends on axioms: [propext, Quot.sound]
'Props.C48_polyadd' depends on axioms: [propext, Classical.choice, Quot.sound]
'Props.C48_polysub' depends on axioms: [propext, Classical.choice, Quot.sound]
'Props.C48_polymul' depends on axioms: [propext, Classical.choice, Quot.sound]
'Props.C48_polysmul' depends on axioms: [propext, Classical.choice, Quot.sound]
'Props.C48_polysmul_empty' depends on axioms: [propext, Classical.choice, Quot.sound]
'Props.C48_trim_zeros' depends on axioms: [propext, Classical.choice, Quot.sound]
'Props.C48_polyder' depends on axioms: [propext, Classical.choice, Quot.sound]
'Props.C48_polyval_partial' depends on axioms: [propext, Classical.choice, Quot.sound]
'Props.C48_polyval_constant' depends on axioms: [propext, Classical.choice, Quot.sound]
'Props.C49_polydiv_partial' depends on axioms: [propext, Classical.choice, Quot.sound]
'Props.C49_polydiv_exact_partial' depends on axioms: [propext, Classical.choice, Quot.sound]
'Props.C49_polydiv_drops' depends on axioms: [propext, Classical.choice, Quot.sound]
'Props.C49_roots_partial' depends on axioms: [propext, Classical.choice, Quot.sound]
'Props.C49_roots_zero' depends on axioms: [propext, Classical.choice, Quot.sound]
'Props.C49_roots_monomial' depends on axioms: [propext, Classical.choice, Quot.sound]
'Props.C50_unique_roots_partial' depends on axioms: [propext, Classical.choice, Quot.sound]
'Props.C50_multiplicities_partial' depends on axioms: [propext, Classical.choice, Quot.sound]
'Props.C50_rtype_raises' depends on axioms: [propext, Quot.sound]
'Props.C50_empty_raises' depends on axioms: [propext, Quot.sound]
'Props.C50_factors' depends on axioms: [propext, Classical.choice, Quot.sound]
'Props.C50_factors_powers' depends on axioms: [propext, Classical.choice, Quot.sound]
'Props.C51_residue_partial' depends on axioms: [propext, Classical.choice, Quot.sound]
'Props.C51_shape' depends on axioms: [propext, Classical.choice, Quot.sound]
'Props.C51_rtype_raises' depends on axioms: [propext, Classical.choice, Quot.sound]
'Props.C51_monomial_raises' depends on axioms: [propext, Classical.choice, Quot.sound]
'Props.C52_residuez_partial' depends on axioms: [propext, Classical.choice, Quot.sound]
'Props.C52_shape' depends on axioms: [propext, Classical.choice, Quot.sound]
'Props.C52_delay_form' depends on axioms: [propext, Classical.choice, Quot.sound]
'Props.C52_rtype_raises' depends on axioms: [propext, Classical.choice, Quot.sound]
'Props.C53_real_partial' depends on axioms: [propext, Classical.choice, Quot.sound]
'Props.C53_complex_partial' depends on axioms: [propext, Classical.choice, Quot.sound]
'Props.C53_repeated_complex_raises' depends on axioms: [propext, Classical.choice, Quot.sound]
'Props.C53_negative_gain' depends on axioms: [propext, Classical.choice, Quot.sound]
'Props.C53_rtype_raises' depends on axioms: [propext, Classical.choice, Quot.sound]
'Props.C53_flags' depends on axioms: [propext, Classical.choice, Quot.sound]
'Props.C53_mixed_negation' depends on axioms: [propext, Classical.choice, Quot.sound]
'Props.C53_order_negation' depends on axioms: [propext, Classical.choice, Quot.sound]
'Props.C54_lti_recur_refines' depends on axioms: [propext, Classical.choice, Quot.sound]
'Props.C54_lti_recur_partial' depends on axioms: [propext, Classical.choice, Quot.sound]
'Props.C54_lti_recur_overflow' depends on axioms: [propext, Classical.choice, Quot.sound]
'Props.C54_lti_recur_long' depends on axioms: [propext, Classical.choice, Quot.sound]
'Props.C54_lti_recur_many' depends on axioms: [propext, Classical.choice, Quot.sound]
'Props.C54_lti_recurN_shared' depends on axioms: [propext, Classical.choice, Quot.sound]
'Props.C54_lti_recurN_batched' depends on axioms: [propext, Classical.choice, Quot.sound]
'Props.C54_lti_recurN_partial' depends on axioms: [propext, Classical.choice, Quot.sound]
'Props.C54_lti_recurN_unfiltered' depends on axioms: [propext, Classical.choice, Quot.sound]
'Props.C54_recurN_shared' depends on axioms: [propext, Classical.choice, Quot.sound]
'Props.C54_recurN_batched' depends on axioms: [propext, Classical.choice, Quot.sound]
'Props.C54_recurN_partial' depends on axioms: [propext, Classical.choice, Quot.sound]
'Props.C54_recurN_unfiltered' depends on axioms: [propext, Classical.choice, Quot.sound]
'Props.C54_cuda_lti_recur_partial' depends on axioms: [propext, Classical.choice, Quot.sound]
'Props.C54_cuda_lti_recur_uninitialised' depends on axioms: [propext, Classical.choice, Quot.sound]
'Props.C54_cuda_lti_recur2_shared_partial' depends on axioms: [propext, Classical.choice, Quot.sound]
'Props.C54_cuda_lti_recur2_batched' depends on axioms: [propext, Classical.choice, Quot.sound]
'Props.C54_cuda_lti_recur2_uninitialised' depends on axioms: [propext, Classical.choice, Quot.sound]
'Props.C54_cuda_recur2_shared' depends on axioms: [propext, Classical.choice, Quot.sound]
'Props.C54_cuda_recur2_batched' depends on axioms: [propext, Classical.choice, Quot.sound]
'Props.C55_linear_recurrence' depends on axioms: [propext, Classical.choice, Quot.sound]
'Props.C55_state_space_recursion' depends on axioms: [propext, Classical.choice, Quot.sound]
'Props.C55_state_space' depends on axioms: [propext, Classical.choice, Quot.sound]
'Props.C55_fir_partial' depends on axioms: [propext, Classical.choice, Quot.sound]
'Props.C55_lfilter' depends on axioms: [propext, Classical.choice, Quot.sound]
'Props.C55_comb_filter_partial' depends on axioms: [propext, Classical.choice, Quot.sound]
'Props.C55_lpv_linear_recurrence' depends on axioms: [propext, Classical.choice, Quot.sound]
'Props.C55_lpv_fir_direct' depends on axioms: [propext, Classical.choice, Quot.sound]
'Props.C55_lpv_fir_transposed_partial' depends on axioms: [propext, Classical.choice, Quot.sound]
'Props.C55_lpv_allpole' depends on axioms: [propext, Classical.choice, Quot.sound]
'Props.C55_lpv_allpole_transposed_partial' depends on axioms: [propext, Classical.choice, Quot.sound]
'Props.C55_lpv_lfilter_partial' depends on axioms: [propext, Classical.choice, Quot.sound]
'Props.C55_lpv_lfilter_torchlpc_partial' depends on axioms: [propext, Classical.choice, Quot.sound]
'Props.C55_state' depends on axioms: [propext, Classical.choice, Quot.sound]
'Props.C55_lpv_not' depends on axioms: [propext, Classical.choice, Quot.sound]
'Props.C56_transfer' depends on axioms: [propext, Classical.choice, Quot.sound]
'Props.C56_transfer_iff' depends on axioms: [propext, Classical.choice, Quot.sound]
'Props.C56_cascade' depends on axioms: [propext, Classical.choice, Quot.sound]
'Props.C56_commute' depends on axioms: [propext, Classical.choice, Quot.sound]
'Props.C56_inverse' depends on axioms: [propext, Classical.choice, Quot.sound]
'Props.C56_impulse' depends on axioms: [propext, Classical.choice, Quot.sound]
'Props.C56_fir_cascade' depends on axioms: [propext, Classical.choice, Quot.sound]
'Props.C56_linear_recurrence' depends on axioms: [propext, Classical.choice, Quot.sound]
'Props.C56_comb_filter' depends on axioms: [propext, Classical.choice, Quot.sound]
'Props.C57_linear_recurrence' depends on axioms: [propext, Classical.choice, Quot.sound]
'Props.C57_lpv_linear_recurrence' depends on axioms: [propext, Classical.choice, Quot.sound]
'Props.C57_recursion' depends on axioms: [propext, Classical.choice, Quot.sound]
'Props.C57_lpv_recursion_partial' depends on axioms: [propext, Classical.choice, Quot.sound]
'Props.C57_markov' depends on axioms: [propext, Classical.choice, Quot.sound]
'Props.C57_similarity' depends on axioms: [propext, Classical.choice, Quot.sound]
'Props.C57_lfilter' depends on axioms: [propext, Classical.choice, Quot.sound]
'Props.C58_linear_recurrence' depends on axioms: [propext, Classical.choice, Quot.sound]
'Props.C58_lpv_linear_recurrence' depends on axioms: [propext, Classical.choice, Quot.sound]
'Props.C58_lpv_forgets' depends on axioms: [propext, Classical.choice, Quot.sound]
'Props.C58_comb_filter' depends on axioms: [propext, Classical.choice, Quot.sound]
'Props.C58_comb_filter_state' depends on axioms: [propext, Classical.choice, Quot.sound]
'Props.C58_fir' depends on axioms: [propext, Classical.choice, Quot.sound]
'Props.C58_fir_state' depends on axioms: [propext, Classical.choice, Quot.sound]
'Props.C58_lpv_fir' depends on axioms: [propext, Classical.choice, Quot.sound]
'Props.C58_lfilter' depends on axioms: [propext, Classical.choice, Quot.sound]
'Props.C58_lfilter_real' depends on axioms: [propext, Classical.choice, Quot.sound]
'Props.C58_unstable' depends on axioms: [propext, Classical.choice, Quot.sound]
'Props.C58_unstable_real' depends on axioms: [propext, Classical.choice, Quot.sound]
'Props.C58_bibo' depends on axioms: [propext, Classical.choice, Quot.sound]
'Props.C58_bibo_real' depends on axioms: [propext, Classical.choice, Quot.sound]
'Props.C58_lfilter_forms' depends on axioms: [propext, Classical.choice, Quot.sound]
'Props.C58_unstable_forms' depends on axioms: [propext, Classical.choice, Quot.sound]
'Props.C58_bibo_forms' depends on axioms: [propext, Classical.choice, Quot.sound]
'Props.C58_recursion' depends on axioms: [propext, Classical.choice, Quot.sound]
'Props.C58_recursion_real' depends on axioms: [propext, Classical.choice, Quot.sound]
'Props.C58_recursion_eigenvalue' depends on axioms: [propext, Classical.choice, Quot.sound]
'Props.C58_lfilter_forgets' depends on axioms: [propext, Classical.choice, Quot.sound]
'Props.C58_lfilter_forgets_real' depends on axioms: [propext, Classical.choice, Quot.sound]
'Props.C59_lti_recur_cpu' depends on axioms: [propext, Classical.choice, Quot.sound]
'Props.C59_lti_recur_cuda' depends on axioms: [propext, Classical.choice, Quot.sound]
'Props.C59_lti_recurN_cpu' depends on axioms: [propext, Classical.choice, Quot.sound]
'Props.C59_recurN_cpu' depends on axioms: [propext, Classical.choice, Quot.sound]
'Props.C59_lti_recur2_cuda' depends on axioms: [propext, Classical.choice, Quot.sound]
'Props.C59_recur2_cuda' depends on axioms: [propext, Classical.choice, Quot.sound]
'Props.C59_growth' depends on axioms: [propext, Classical.choice, Quot.sound]
'Props.C59_devices_agree' depends on axioms: [propext, Classical.choice, Quot.sound]
'Props.C59_lti_recur_stable' depends on axioms: [propext, Classical.choice, Quot.sound]
'Props.C59_binary_case' depends on axioms: [propext, Classical.choice, Quot.sound]
'Props.C59_devices_differ' depends on axioms: [propext, Classical.choice, Quot.sound]
'Props.C60_df2' depends on axioms: [propext, Classical.choice, Quot.sound]
'Props.C60_torchlpc_df2' depends on axioms: [propext, Classical.choice, Quot.sound]
'Props.C60_df1' depends on axioms: [propext, Classical.choice, Quot.sound]
'Props.C60_torchlpc_df1' depends on axioms: [propext, Classical.choice, Quot.sound]
'Props.C60_tdf1' depends on axioms: [propext, Classical.choice, Quot.sound]
'Props.C60_torchlpc_tdf1' depends on axioms: [propext, Classical.choice, Quot.sound]
'Props.C60_tdf2' depends on axioms: [propext, Classical.choice, Quot.sound]
'Props.C60_allpole' depends on axioms: [propext, Classical.choice, Quot.sound]
'Props.C60_allpole_transposed' depends on axioms: [propext, Classical.choice, Quot.sound]
'Props.C60_recursion' depends on axioms: [propext, Classical.choice, Quot.sound]
'Props.C60_frozen' depends on axioms: [propext, Classical.choice, Quot.sound]
'Props.C60_frozen_lfilter' depends on axioms: [propext, Classical.choice, Quot.sound]
'Props.C61_residuez_partial' depends on axioms: [propext, Classical.choice, Quot.sound]
'Props.C61_sos_real_partial' depends on axioms: [propext, Classical.choice, Quot.sound]
'Props.C61_sos_complex_partial' depends on axioms: [propext, Classical.choice, Quot.sound]
'Props.C62_given_basis_partial' depends on axioms: [propext, Classical.choice, Quot.sound]
'Props.C62_long_partial' depends on axioms: [propext, Classical.choice, Quot.sound]
'Props.C62_basis_exists' depends on axioms: [propext, Classical.choice, Quot.sound]
'Props.C62_vandermonde_df2' depends on axioms: [propext, Classical.choice, Quot.sound]
'Props.C62_vandermonde_tdf2' depends on axioms: [propext, Classical.choice, Quot.sound]
'Props.C62_override_df2' depends on axioms: [propext, Classical.choice, Quot.sound]
'Props.C62_override_tdf2' depends on axioms: [propext, Classical.choice, Quot.sound]
'Props.C62_basis_without_poles' depends on axioms: [propext, Classical.choice, Quot.sound]
'Props.C62_tdf2_complex' depends on axioms: [propext, Classical.choice, Quot.sound]
'Props.C62_repeated_pole' depends on axioms: [propext, Classical.choice, Quot.sound]
'Props.C62_layout' depends on axioms: [propext, Classical.choice, Quot.sound]
'Props.C62_batched_poles_only' depends on axioms: [propext, Classical.choice, Quot.sound]
'Props.C62_poles_only_partial' depends on axioms: [propext, Classical.choice, Quot.sound]
'Props.C63_tdf2_partial' depends on axioms: [propext, Classical.choice, Quot.sound]
'Props.C63_df2_partial' depends on axioms: [propext, Classical.choice, Quot.sound]
'Props.C63_given_basis_partial' depends on axioms: [propext, Classical.choice, Quot.sound]
'Props.C63_long_numerator' depends on axioms: [propext, Classical.choice, Quot.sound]
'Props.C64_steady' depends on axioms: [propext, Classical.choice, Quot.sound]
'Props.C64_transient' depends on axioms: [propext, Classical.choice, Quot.sound]
'Props.C64_rest' depends on axioms: [propext, Classical.choice, Quot.sound]
'Props.C64_response' depends on axioms: [propext, Classical.choice, Quot.sound]
'Props.C64_cosine' depends on axioms: [propext, Classical.choice, Quot.sound]
'Props.C64_determines' depends on axioms: [propext, Classical.choice, Quot.sound]
'Props.C64_state_space' depends on axioms: [propext, Classical.choice, Quot.sound]
'Props.C64_state_space_response' depends on axioms: [propext, Classical.choice, Quot.sound]
'Props.C64_comb_filter' depends on axioms: [propext, Classical.choice, Quot.sound]
'Props.C65_passive' depends on axioms: [propext, Classical.choice, Quot.sound]
'Props.C65_passive_real' depends on axioms: [propext, Classical.choice, Quot.sound]
'Props.C65_lossless' depends on axioms: [propext, Classical.choice, Quot.sound]
'Props.C65_lossless_real' depends on axioms: [propext, Classical.choice, Quot.sound]
'Props.C65_gain' depends on axioms: [propext, Classical.choice, Quot.sound]
'Props.C66_bounded' depends on axioms: [propext, Classical.choice, Quot.sound]
'Props.C66_bounded_real' depends on axioms: [propext, Classical.choice, Quot.sound]
'Props.C66_response' depends on axioms: [propext, Classical.choice, Quot.sound]
'Props.C66_cosine' depends on axioms: [propext, Classical.choice, Quot.sound]
'Props.C67_matrix_power_accumulate_iff' depends on axioms: [propext, Classical.choice, Quot.sound]
'Props.C67_matrices_cumdot_iff' depends on axioms: [propext, Classical.choice, Quot.sound]
'Props.C67_lti_state_space' depends on axioms: [propext, Classical.choice, Quot.sound]
'Props.C67_lpv_state_space' depends on axioms: [propext, Classical.choice, Quot.sound]
'Props.C67_lti_fir' depends on axioms: [propext, Classical.choice, Quot.sound]
'Props.C67_lpv_fir' depends on axioms: [propext, Classical.choice, Quot.sound]
'Props.C67_lpv_allpole' depends on axioms: [propext, Classical.choice, Quot.sound]
'Props.C67_comb_filter_partial' depends on axioms: [propext, Classical.choice, Quot.sound]
'Props.C67_comb_filter_accepts_any_layout' depends on axioms: [propext, Classical.choice, Quot.sound]
'Props.C67_lti_lfilter_partial' depends on axioms: [propext, Classical.choice, Quot.sound]
'Props.C67_df2_accepts_any_rows' depends on axioms: [propext, Classical.choice, Quot.sound]
'Props.C67_lpv_lfilter_partial' depends on axioms: [propext, Classical.choice, Quot.sound]
'Props.C67_lpv_df2_accepts_time_rows' depends on axioms: [propext, Classical.choice, Quot.sound]
'Props.C67_lpv_lfilter_accepts_one_step' depends on axioms: [propext, Classical.choice, Quot.sound]
'Props.C67_torchlpc_lfilter' depends on axioms: [propext, Classical.choice, Quot.sound]
'Props.C67_diag_state_space_partial' depends on axioms: [propext, Classical.choice, Quot.sound]
'Props.C67_filtfilt_partial' depends on axioms: [propext, Classical.choice, Quot.sound]
'Props.C67_diag_initial_state_partial' depends on axioms: [propext, Classical.choice, Quot.sound]
'Props.C67_diag_accepts_one_state' depends on axioms: [propext, Classical.choice, Quot.sound]
'Props.C67_diag_accepts_long_state' depends on axioms: [propext, Classical.choice, Quot.sound]
'Props.C67_lti_linear_recurrence_iff' depends on axioms: [propext, Classical.choice, Quot.sound]
'Props.C67_linear_recurrence_accepts_empty' depends on axioms: [propext, Classical.choice, Quot.sound]
'Props.C67_lpv_linear_recurrence_iff_partial' depends on axioms: [propext, Classical.choice, Quot.sound]
'Props.C67_lpv_linear_recurrence_accepts_rows' depends on axioms: [propext, Classical.choice, Quot.sound]
'Props.C67_lti_recursion_iff' depends on axioms: [propext, Classical.choice, Quot.sound]
'Props.C67_lpv_recursion_iff' depends on axioms: [propext, Classical.choice, Quot.sound]
'Props.C67_companion_iff' depends on axioms: [propext, Classical.choice, Quot.sound]
'Props.C67_vandermonde_iff' depends on axioms: [propext, Classical.choice, Quot.sound]
'Props.C68_lti_linear_recurrence' depends on axioms: [propext, Classical.choice, Quot.sound]
'Props.C68_lpv_linear_recurrence' depends on axioms: [propext, Classical.choice, Quot.sound]
'Props.C68_lti_state_space_recursion' depends on axioms: [propext, Classical.choice, Quot.sound]
'Props.C68_lpv_state_space_recursion' depends on axioms: [propext, Classical.choice, Quot.sound]
'Props.C68_recursion_limit' depends on axioms: [propext, Classical.choice, Quot.sound]
'Props.C68_matrices_cumdot' depends on axioms: [propext, Classical.choice, Quot.sound]
'Props.C68_polysmul' depends on axioms: [propext, Classical.choice, Quot.sound]
'Props.C69_linear_recurrence' depends on axioms: [propext, Classical.choice, Quot.sound]
'Props.C69_state_space_recursion' depends on axioms: [propext, Classical.choice, Quot.sound]
'Props.C69_state_space' depends on axioms: [propext, Classical.choice, Quot.sound]
'Props.C69_comb_filter' depends on axioms: [propext, Classical.choice, Quot.sound]
'Props.C69_fir' depends on axioms: [propext, Classical.choice, Quot.sound]
'Props.C69_lti_lfilter' depends on axioms: [propext, Classical.choice, Quot.sound]
'Props.C69_lpv_lfilter' depends on axioms: [propext, Classical.choice, Quot.sound]
'Props.C69_helpers' depends on axioms: [propext, Classical.choice, Quot.sound]
'Props.C69_backward' depends on axioms: [propext, Classical.choice, Quot.sound]
'Props.C69_jvp' depends on axioms: [propext, Classical.choice, Quot.sound]
'Props.C69_filtfilt' depends on axioms: [propext, Classical.choice, Quot.sound]
'Props.C69_polydiv' depends on axioms: [propext, Classical.choice, Quot.sound]
'Props.C69_real_as_complex' depends on axioms: [propext, Classical.choice, Quot.sound]
'Props.C69_conjugate' depends on axioms: [propext, Classical.choice, Quot.sound]
'Props.C69_subring' depends on axioms: [propext, Classical.choice, Quot.sound]
'Props.C69_subring_state_space' depends on axioms: [propext, Classical.choice, Quot.sound]
'Props.C70_linear_recurrence' depends on axioms: [propext, Classical.choice, Quot.sound]
'Props.C70_state_space_recursion' depends on axioms: [propext, Classical.choice, Quot.sound]
'Props.C70_state_space' depends on axioms: [propext, Classical.choice, Quot.sound]
'Props.C70_comb_filter' depends on axioms: [propext, Classical.choice, Quot.sound]
'Props.C70_fir' depends on axioms: [propext, Classical.choice, Quot.sound]
'Props.C70_lti_lfilter' depends on axioms: [propext, Classical.choice, Quot.sound]
'Props.C70_lpv_lfilter' depends on axioms: [propext, Classical.choice, Quot.sound]
'Props.C70_helpers' depends on axioms: [propext, Classical.choice, Quot.sound]
'Props.C70_backward' depends on axioms: [propext, Classical.choice, Quot.sound]
'Props.C70_lfilter_zi_values' depends on axioms: [propext, Classical.choice, Quot.sound]
'Props.C71_lti_lfilter' depends on axioms: [propext, Classical.choice, Quot.sound]
'Props.C71_lpv_lfilter' depends on axioms: [propext, Classical.choice, Quot.sound]
'Props.C71_allpole' depends on axioms: [propext, Classical.choice, Quot.sound]
'Props.C71_state_space' depends on axioms: [propext, Classical.choice, Quot.sound]
'Props.C71_state_space_recursion' depends on axioms: [propext, Classical.choice, Quot.sound]
'Props.C71_linear_recurrence' depends on axioms: [propext, Classical.choice, Quot.sound]
'Props.C71_fir' depends on axioms: [propext, Classical.choice, Quot.sound]
'Props.C71_comb_filter' depends on axioms: [propext, Classical.choice, Quot.sound]
'Props.C71_backward' depends on axioms: [propext, Classical.choice, Quot.sound]
'Props.C71_jvp_scalar' depends on axioms: [propext, Classical.choice, Quot.sound]
'Props.C71_jvp_matrix' depends on axioms: [propext, Classical.choice, Quot.sound]
'Props.C71_jvp_varying' depends on axioms: [propext, Classical.choice, Quot.sound]
'Props.C71_lfilter_derivative' depends on axioms: [propext, Classical.choice, Quot.sound]
'Props.C72_linear_recurrence' depends on axioms: [propext, Classical.choice, Quot.sound]
'Props.C72_lpv_linear_recurrence' depends on axioms: [propext, Classical.choice, Quot.sound]
'Props.C72_state_space_recursion' depends on axioms: [propext, Classical.choice, Quot.sound]
'Props.C72_lpv_state_space_recursion_partial' depends on axioms: [propext, Classical.choice, Quot.sound]
'Props.C72_state_space' depends on axioms: [propext, Classical.choice, Quot.sound]
'Props.C72_lpv_state_space_partial' depends on axioms: [propext, Classical.choice, Quot.sound]
'Props.C72_fir_partial' depends on axioms: [propext, Classical.choice, Quot.sound]
'Props.C72_lfilter' depends on axioms: [propext, Classical.choice, Quot.sound]
'Props.C72_lfilter_df2_state' depends on axioms: [propext, Classical.choice, Quot.sound]
'Props.C72_lfilter_tdf2_state' depends on axioms: [propext, Classical.choice, Quot.sound]
'Props.C72_comb_filter_partial' depends on axioms: [propext, Classical.choice, Quot.sound]
'Props.C72_lpv_fir_direct' depends on axioms: [propext, Classical.choice, Quot.sound]
'Props.C72_lpv_fir_transposed_partial' depends on axioms: [propext, Classical.choice, Quot.sound]
'Props.C72_lpv_allpole' depends on axioms: [propext, Classical.choice, Quot.sound]
'Props.C72_lpv_allpole_transposed_partial' depends on axioms: [propext, Classical.choice, Quot.sound]
'Props.C72_lpv_lfilter_partial' depends on axioms: [propext, Classical.choice, Quot.sound]
'Props.C72_lpv_lfilter_torchlpc_partial' depends on axioms: [propext, Classical.choice, Quot.sound]
'Props.C72_complex' depends on axioms: [propext, Classical.choice, Quot.sound]
'Props.C73_fir' depends on axioms: [propext, Classical.choice, Quot.sound]
'Props.C73_lfilter' depends on axioms: [propext, Classical.choice, Quot.sound]
'Props.C73_comb_filter_partial' depends on axioms: [propext, Classical.choice, Quot.sound]
'Props.C73_lpv_fir_direct' depends on axioms: [propext, Classical.choice, Quot.sound]
'Props.C73_lpv_allpole' depends on axioms: [propext, Classical.choice, Quot.sound]
'Props.C73_lpv_fir_transposed' depends on axioms: [propext, Classical.choice, Quot.sound]
'Props.C73_lpv_allpole_transposed' depends on axioms: [propext, Classical.choice, Quot.sound]
'Props.C73_lpv_lfilter_partial' depends on axioms: [propext, Classical.choice, Quot.sound]
'Props.C73_lpv_lfilter_torchlpc' depends on axioms: [propext, Classical.choice, Quot.sound]
'Props.C73_lpv_tdf1' depends on axioms: [propext, Classical.choice, Quot.sound]
'Props.C74_lti_fir' depends on axioms: [propext, Classical.choice, Quot.sound]
'Props.C74_lti_lfilter' depends on axioms: [propext, Classical.choice, Quot.sound]
'Props.C74_lti_lfilter_real' depends on axioms: [propext, Classical.choice, Quot.sound]
'Props.C74_comb_filter' depends on axioms: [propext, Classical.choice, Quot.sound]
'Props.C74_lti_linear_recurrence' depends on axioms: [propext, Classical.choice, Quot.sound]
'Props.C74_lpv_linear_recurrence' depends on axioms: [propext, Classical.choice, Quot.sound]
'Props.C74_lti_state_space' depends on axioms: [propext, Classical.choice, Quot.sound]
'Props.C74_lpv_state_space' depends on axioms: [propext, Classical.choice, Quot.sound]
'Props.C74_lpv_fir' depends on axioms: [propext, Classical.choice, Quot.sound]
'Props.C74_lpv_allpole' depends on axioms: [propext, Classical.choice, Quot.sound]
'Props.C74_lpv_lfilter_partial' depends on axioms: [propext, Classical.choice, Quot.sound]
'Props.C74_lpv_lfilter_torchlpc' depends on axioms: [propext, Classical.choice, Quot.sound]
'Props.C74_lpv_tdf1' depends on axioms: [propext, Classical.choice, Quot.sound]
'Props.C75_lti_linear_recurrence' depends on axioms: [propext, Classical.choice, Quot.sound]
'Props.C75_lpv_linear_recurrence' depends on axioms: [propext, Classical.choice, Quot.sound]
'Props.C75_lti_state_space_recursion' depends on axioms: [propext, Classical.choice, Quot.sound]
'Props.C75_lpv_state_space_recursion' depends on axioms: [propext, Classical.choice, Quot.sound]
'Props.C75_lti_state_space' depends on axioms: [propext, Classical.choice, Quot.sound]
'Props.C75_lpv_state_space' depends on axioms: [propext, Classical.choice, Quot.sound]
'Props.C75_lti_fir' depends on axioms: [propext, Classical.choice, Quot.sound]
'Props.C75_lpv_fir' depends on axioms: [propext, Classical.choice, Quot.sound]
'Props.C75_lti_lfilter' depends on axioms: [propext, Classical.choice, Quot.sound]
'Props.C75_magnitude' depends on axioms: [propext, Classical.choice, Quot.sound]
'Props.C75_lti_lfilter_states' depends on axioms: [propext, Classical.choice, Quot.sound]
'Props.C75_comb_filter' depends on axioms: [propext, Classical.choice, Quot.sound]
'Props.C75_lpv_allpole' depends on axioms: [propext, Classical.choice, Quot.sound]
'Props.C75_lpv_lfilter_rest' depends on axioms: [propext, Classical.choice, Quot.sound]
'Props.C75_lpv_lfilter_states' depends on axioms: [propext, Classical.choice, Quot.sound]
'Props.C75_lpv_lfilter_df1' depends on axioms: [propext, Classical.choice, Quot.sound]
'Props.C75_lpv_lfilter_torchlpc' depends on axioms: [propext, Classical.choice, Quot.sound]
'Props.C75_monotone' depends on axioms: [propext, Classical.choice, Quot.sound]
'Props.C75_not_monotone' depends on axioms: [propext, Classical.choice, Quot.sound]
'Props.C76_convert' depends on axioms: [propext, Classical.choice, Quot.sound]
'Props.C76_unique' depends on axioms: [propext, Classical.choice, Quot.sound]
'Props.C76_not_conversely' depends on axioms: [propext, Classical.choice, Quot.sound]
'Props.C77_lti_state_space' depends on axioms: [propext, Classical.choice, Quot.sound]
'Props.C77_lpv_state_space' depends on axioms: [propext, Classical.choice, Quot.sound]
'Props.C78_lti_series' depends on axioms: [propext, Classical.choice, Quot.sound]
'Props.C78_lti_parallel' depends on axioms: [propext, Classical.choice, Quot.sound]
'Props.C78_lpv_series' depends on axioms: [propext, Classical.choice, Quot.sound]
'Props.C78_lpv_parallel' depends on axioms: [propext, Classical.choice, Quot.sound]
'Props.C79_lti_linear_recurrence' depends on axioms: [propext, Classical.choice, Quot.sound]
'Props.C79_lpv_linear_recurrence' depends on axioms: [propext, Classical.choice, Quot.sound]
'Props.C79_lti_state_space_recursion' depends on axioms: [propext, Classical.choice, Quot.sound]
'Props.C79_lpv_state_space_recursion' depends on axioms: [propext, Classical.choice, Quot.sound]
'Props.C79_lti_state_space' depends on axioms: [propext, Classical.choice, Quot.sound]
'Props.C79_lpv_state_space' depends on axioms: [propext, Classical.choice, Quot.sound]
'Props.C79_not_batch_eq_length' depends on axioms: [propext, Classical.choice, Quot.sound]
'Props.C79_lti_lfilter' depends on axioms: [propext, Classical.choice, Quot.sound]
'Props.C79_lti_lfilter_states' depends on axioms: [propext, Classical.choice, Quot.sound]
'Props.C79_lpv_lfilter_states' depends on axioms: [propext, Classical.choice, Quot.sound]
'Props.C79_lpv_lfilter_torchlpc' depends on axioms: [propext, Classical.choice, Quot.sound]
'Props.C79_comb_filter' depends on axioms: [propext, Classical.choice, Quot.sound]
'Props.C80_fibonacci' depends on axioms: [propext, Classical.choice, Quot.sound]
'Props.C80_steady_start' depends on axioms: [propext, Classical.choice, Quot.sound]
'Props.C81_stable' depends on axioms: [propext, Classical.choice, Quot.sound]
'Props.C81_response' depends on axioms: [propext, Classical.choice, Quot.sound]
'Props.C81_cutoff' depends on axioms: [propext, Classical.choice, Quot.sound]
'Props.C81_run' depends on axioms: [propext, Classical.choice, Quot.sound]
'Props.C81_constant' depends on axioms: [propext, Classical.choice, Quot.sound]
'Props.C81_identifies' depends on axioms: [propext, Classical.choice, Quot.sound]
'Props.C81_not_nyquist' depends on axioms: [propext, Classical.choice, Quot.sound]
'Props.C81_not_zero' depends on axioms: [propext, Classical.choice, Quot.sound]
'Props.C82_periodic' depends on axioms: [propext, Classical.choice, Quot.sound]
'Props.C82_steady_state' depends on axioms: [propext, Classical.choice, Quot.sound]
'Props.C82_settles' depends on axioms: [propext, Classical.choice, Quot.sound]
'Props.C82_marginal' depends on axioms: [propext, Classical.choice, Quot.sound]
'Props.C82_state_space_periodic' depends on axioms: [propext, Classical.choice, Quot.sound]
'Props.C82_lpv_state_space_periodic' depends on axioms: [propext, Classical.choice, Quot.sound]
'Props.C82_state_space_steady_state' depends on axioms: [propext, Classical.choice, Quot.sound]
'Props.C82_lpv_state_space_steady_state' depends on axioms: [propext, Classical.choice, Quot.sound]
'Props.C82_state_space_eigenvalues' depends on axioms: [propext, Classical.choice, Quot.sound]
'Props.C82_state_space_settles' depends on axioms: [propext, Classical.choice, Quot.sound]
'Props.C83_tdf2_observe' depends on axioms: [propext, Classical.choice, Quot.sound]
'Props.C83_df2_reach' depends on axioms: [propext, Classical.choice, Quot.sound]
'Props.C83_df2_blind' depends on axioms: [propext, Classical.choice, Quot.sound]
'Props.C83_tdf2_stuck' depends on axioms: [propext, Classical.choice, Quot.sound]
'Props.C83_state_space_observe' depends on axioms: [propext, Classical.choice, Quot.sound]
'Props.C83_state_space_reach' depends on axioms: [propext, Classical.choice, Quot.sound]
'Props.C83_lpv_tdf2_observe' depends on axioms: [propext, Classical.choice, Quot.sound]
'Props.C83_lpv_df2_reach' depends on axioms: [propext, Classical.choice, Quot.sound]
'Props.C84_lfilter' depends on axioms: [propext, Classical.choice, Quot.sound]
'Props.C84_lfilter_sharp' depends on axioms: [propext, Classical.choice, Quot.sound]
'Props.C84_state_space' depends on axioms: [propext, Classical.choice, Quot.sound]
'Props.C84_state_space_sharp' depends on axioms: [propext, Classical.choice, Quot.sound]
'Props.C84_identify' depends on axioms: [propext, Classical.choice, Quot.sound]
'Props.C84_identify_not' depends on axioms: [propext, Classical.choice, Quot.sound]
'Props.C85_lti_inverse' depends on axioms: [propext, Classical.choice, Quot.sound]
'Props.C85_lti_feedback' depends on axioms: [propext, Classical.choice, Quot.sound]
'Props.C85_lpv_inverse' depends on axioms: [propext, Classical.choice, Quot.sound]
'Props.C85_lpv_feedback' depends on axioms: [propext, Classical.choice, Quot.sound]
'Props.C85_df2_inverse' depends on axioms: [propext, Classical.choice, Quot.sound]
'Props.C85_tdf2_inverse' depends on axioms: [propext, Classical.choice, Quot.sound]
'Props.C85_lpv_df2_inverse' depends on axioms: [propext, Classical.choice, Quot.sound]
'Props.C85_lpv_tdf2_inverse' depends on axioms: [propext, Classical.choice, Quot.sound]
'Props.C86_lti_dissipation' depends on axioms: [propext, Classical.choice, Quot.sound]
'Props.C86_lti_contraction' depends on axioms: [propext, Classical.choice, Quot.sound]
'Props.C86_lti_contraction_only' depends on axioms: [propext, Classical.choice, Quot.sound]
'Props.C86_lti_lossless' depends on axioms: [propext, Classical.choice, Quot.sound]
'Props.C86_lpv_dissipation' depends on axioms: [propext, Classical.choice, Quot.sound]
'Props.C86_lpv_contraction' depends on axioms: [propext, Classical.choice, Quot.sound]
'Props.C86_lpv_lossless' depends on axioms: [propext, Classical.choice, Quot.sound]
'Props.C87_exchange' depends on axioms: [propext, Classical.choice, Quot.sound]
'Props.C87_reverse' depends on axioms: [propext, Classical.choice, Quot.sound]
'Props.C87_linear_phase' depends on axioms: [propext, Classical.choice, Quot.sound]
'Props.C88_mean' depends on axioms: [propext, Classical.choice, Quot.sound]
'Props.C88_white' depends on axioms: [propext, Classical.choice, Quot.sound]
'Props.C88_covariance' depends on axioms: [propext, Classical.choice, Quot.sound]
'Props.C88_lpv_covariance' depends on axioms: [propext, Classical.choice, Quot.sound]
'Props.C89_blocks' depends on axioms: [propext, Classical.choice, Quot.sound]
'Props.C89_lpv_blocks' depends on axioms: [propext, Classical.choice, Quot.sound]
'Props.C90_recursion' depends on axioms: [propext, Classical.choice, Quot.sound]
'Props.C90_lpv_recursion' depends on axioms: [propext, Classical.choice, Quot.sound]
'Props.C90_linear_recurrence' depends on axioms: [propext, Classical.choice, Quot.sound]
'Props.C90_lpv_linear_recurrence' depends on axioms: [propext, Classical.choice, Quot.sound]
'Props.C91_observer' depends on axioms: [propext, Classical.choice, Quot.sound]
'Props.C91_deadbeat' depends on axioms: [propext, Classical.choice, Quot.sound]
'Props.C91_lpv_observer' depends on axioms: [propext, Classical.choice, Quot.sound]
'Props.C92_forget' depends on axioms: [propext, Classical.choice, Quot.sound]
'Props.C92_fir' depends on axioms: [propext, Classical.choice, Quot.sound]
'Props.C92_lpv_forget' depends on axioms: [propext, Classical.choice, Quot.sound]
