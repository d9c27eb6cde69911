{
 "claims": [
  {
   "property": "C01",
   "status": "proved",
   "theorems": [
    "Props.C01_linear_recurrence",
    "Props.C01_unroll_factor_irrelevant",
    "Props.C01_equations",
    "Props.C01_rejects_unroll_factor",
    "Props.C01_rejects_shapes",
    "Props.C01_rejects_empty"
   ],
   "note": "all layouts, lengths and unroll factors; error branches included"
  },
  {
   "property": "C02",
   "status": "proved",
   "theorems": [
    "Props.C02_linear_recurrence",
    "Props.C02_unroll_factor_irrelevant",
    "Props.C02_equations",
    "Props.C02_rejects_unroll_factor",
    "Props.C02_rejects_shapes",
    "Props.C02_unchecked_length"
   ],
   "note": "coefficients (N,), (1,N), (B,N); the missing length check for 2-D coefficients is shown as C02_unchecked_length"
  },
  {
   "property": "C03",
   "status": "proved",
   "theorems": [
    "Props.C03_powers",
    "Props.C03_powers_batched",
    "Props.C03_zero",
    "Props.C03_zero_batched",
    "Props.C03_negative",
    "Props.C03_negative_batched",
    "Props.C03_negative_singular",
    "Props.C03_negative_inverse",
    "Props.C03_factorisation_irrelevant",
    "Props.C03_rejects_non_square",
    "Props.C03_powers_any_batch",
    "Props.C03_zero_any_batch",
    "Props.C03_negative_any_batch"
   ],
   "note": "n >= 1, n = 0, n < 0 (invertible A), for matrices with any number of batch axes, for every factorisation; sympy factorint is represented by any list of positive factors with product n"
  },
  {
   "property": "C04",
   "status": "partial",
   "theorems": [
    "Props.C04_cumdot_partial",
    "Props.C04_cumdot_batched_partial",
    "Props.C04_cumdot_batched2_partial",
    "Props.C04_cumdot_any_batch_partial",
    "Props.C04_commuting_any_batch_partial",
    "Props.C04_misordered",
    "Props.C04_exact",
    "Props.C04_exact_commuting",
    "Props.C04_wrong_at_four",
    "Props.C04_wrong_at_eight"
   ],
   "note": "The claim as stated is false for the code. C04_exact shows the code is right for all sequences of P >= 1 matrices of size >= 2 if and only if P is 1 or prime; C04_exact_commuting shows that for commuting matrices it is right if and only if P has at most two prime factors. Positive parts hold for any number of batch axes."
  },
  {
   "property": "C05",
   "status": "proved",
   "theorems": [
    "Props.C05_state_space_recursion",
    "Props.C05_unroll_factor_irrelevant",
    "Props.C05_equations",
    "Props.C05_rejects_unroll_factor",
    "Props.C05_rejects_shapes",
    "Props.C05_rejects_empty"
   ],
   "note": "Shared and per-batch A, 2-D and 3-D x, every unroll factor; rejection of bad shapes, unroll factor < 1 and empty signals."
  },
  {
   "property": "C06",
   "status": "proved",
   "theorems": [
    "Props.C06_lti_commutes",
    "Props.C06_lti_nonnegative",
    "Props.C06_lti_negative",
    "Props.C06_lti_out_of_range",
    "Props.C06_lpv_commutes",
    "Props.C06_lpv_out_of_range"
   ],
   "note": "lti and lpv: every unroll factor >= 1 (also those for which C07 fails) and every in-range index (C06_lpv_commutes); out-of-range indices raise in both (C06_lpv_out_of_range)."
  },
  {
   "property": "C07",
   "status": "partial",
   "theorems": [
    "Props.C07_state_space_recursion_partial",
    "Props.C07_equations_partial",
    "Props.C07_commuting_partial",
    "Props.C07_exact",
    "Props.C07_exact_shared",
    "Props.C07_exact_commuting",
    "Props.C07_wrong_at_five",
    "Props.C07_wrong_at_nine",
    "Props.C07_rejects_unroll_factor",
    "Props.C07_rejects_shapes"
   ],
   "note": "The claim as stated is false for the code; the exact condition is proved: C07_exact, C07_exact_shared (right for all matrices of size >= 2, states and inputs if and only if u <= 2, u >= N or u-1 prime), C07_exact_commuting (for matrices that commute with each other, if and only if u <= 2, u >= N or u-1 a product of at most two primes). u = 5 and u = 9 are concrete counterexamples."
  },
  {
   "property": "C08",
   "status": "partial",
   "theorems": [
    "Props.C08_state_space_partial",
    "Props.C08_state_space_out_idx_partial",
    "Props.C08_rejects_C_and_out_idx",
    "Props.C08_ambiguous_input",
    "Props.C08_ambiguous_output"
   ],
   "note": "All documented shapes of B, C, D, zi, with output matrix or index, every unroll factor; coinciding sizes (batch = M = F, P = batch, ...) are excluded by the layout relations, and the code's behaviour there is shown wrong by C08_ambiguous_*."
  },
  {
   "property": "C09",
   "status": "partial",
   "theorems": [
    "Props.C09_state_space_partial",
    "Props.C09_state_space_out_idx_partial",
    "Props.C09_state_space_commuting_partial",
    "Props.C09_exact",
    "Props.C09_wrong_feedthrough",
    "Props.C09_wrong_output",
    "Props.C09_rejects_C_and_out_idx"
   ],
   "note": "As C08; additionally the unroll factors of C07, which is the exact condition (C09_exact); commuting matrices may use more factors (C09_state_space_commuting_partial). Refuted for batch = N by C09_wrong_feedthrough and C09_wrong_output."
  },
  {
   "property": "C10",
   "status": "partial",
   "theorems": [
    "Props.C10_lti_stream_partial",
    "Props.C10_lti_split_partial",
    "Props.C10_lpv_stream_partial"
   ],
   "note": "Any number of chunks of any positive lengths and any unroll factors for which C08/C09 hold; argument layouts as in C08/C09."
  },
  {
   "property": "C11",
   "status": "proved",
   "theorems": [
    "Props.C11_lfilter",
    "Props.C11_unique",
    "Props.C11_forms_agree",
    "Props.C11_rejects_form"
   ],
   "note": "All four forms of lfilter with backend ssm compute the difference equation for real data, in every batch layout, for unequal orders and any unroll factor >= 1; uniqueness and agreement of the forms follow."
  },
  {
   "property": "C12",
   "status": "partial",
   "theorems": [
    "Props.C12_lfilter_partial",
    "Props.C12_reduces",
    "Props.C12_conjugated_numerator",
    "Props.C12_conjugated_denominator",
    "Props.C12_forms_disagree"
   ],
   "note": "The claim is false: df1 and tdf2 conjugate b, tdf1 and tdf2 conjugate a. The partial theorem says what each form computes (C12_reduces: every form is df2 with mapped coefficients); counterexamples over the Gaussian integers."
  },
  {
   "property": "C13",
   "status": "proved",
   "theorems": [
    "Props.C13_tdf2",
    "Props.C13_tdf2_complex"
   ],
   "note": "Textbook delay line, including the final state; the complex variant (conjugated coefficients) is stated too."
  },
  {
   "property": "C14",
   "status": "proved",
   "theorems": [
    "Props.C14_df2"
   ],
   "note": "Internal signal w, output and final state, real or complex."
  },
  {
   "property": "C15",
   "status": "partial",
   "theorems": [
    "Props.C15_lfiltic_partial",
    "Props.C15_one_tap",
    "Props.C15_no_poles"
   ],
   "note": "Proved for real data, at least two taps and at least one pole, every past and every length. lfiltic raises for one tap or no poles (proved: C15_one_tap, C15_no_poles)."
  },
  {
   "property": "C16",
   "status": "partial",
   "theorems": [
    "Props.C16_tdf2_partial",
    "Props.C16_df2_partial",
    "Props.C16_df2_long_numerator",
    "Props.C16_tdf2_complex",
    "Props.C16_df2_returns_iff",
    "Props.C16_tdf2_returns_iff"
   ],
   "note": "tdf2: proved for real data; refuted for complex numerators (C16_tdf2_complex). df2: proved for len(b) <= len(a)+1, real or complex; refuted beyond (C16_df2_long_numerator). lfilter_zi returns if and only if no filter of the batch has a pole at one (C16_df2_returns_iff, C16_tdf2_returns_iff)."
  },
  {
   "property": "C17",
   "status": "partial",
   "theorems": [
    "Props.C17_direct",
    "Props.C17_direct_state_partial",
    "Props.C17_transposed_partial",
    "Props.C17_transposed_state_partial",
    "Props.C17_one_tap_transposed",
    "Props.C17_one_tap_direct_state",
    "Props.C17_short_transposed",
    "Props.C17_short_transposed_shape"
   ],
   "note": "Proved except for one tap with state (final state wrong), one tap transposed (empty output) and transposed with state and N < M (error or wrong shape); these are proved as counterexamples. Transposed form for real numbers only (complex taps are conjugated)."
  },
  {
   "property": "C18",
   "status": "partial",
   "theorems": [
    "Props.C18_lfilter_df2",
    "Props.C18_lfilter_tdf2",
    "Props.C18_fir_direct_partial",
    "Props.C18_fir_transposed_partial",
    "Props.C18_comb_partial",
    "Props.C18_lpv_fir_direct",
    "Props.C18_lpv_fir_transposed_partial",
    "Props.C18_lpv_allpole_direct_partial",
    "Props.C18_lpv_allpole_transposed_partial",
    "Props.C18_lpv_lfilter_df2_partial",
    "Props.C18_lpv_lfilter_tdf2_partial",
    "Props.C18_lpv_lfilter_torchlpc_partial"
   ],
   "note": "lti.lfilter df2/tdf2 for all layouts and chunkings; lti.fir direct for >= 2 taps, transposed for chunks at least as long as the delay line; comb_filter for chunks at least as long as the delay; lpv.fir direct without restriction, lpv.fir transposed, lpv.allpole (both forms) and lpv.lfilter df2 with torchlpc for chunks at least as long as the state; lpv.lfilter df2/tdf2 with ssm for the layouts and unroll factors of C30. The excluded cases raise or return a wrong state (C17, C19, C27, C28)."
  },
  {
   "property": "C19",
   "status": "partial",
   "theorems": [
    "Props.C19_with_state_partial",
    "Props.C19_without_state_partial",
    "Props.C19_delay_one_partial",
    "Props.C19_short_signal",
    "Props.C19_no_extension",
    "Props.C19_delay_zero",
    "Props.C19_single_coefficient"
   ],
   "note": "comb_filter with the extension computes y[n] = x[n] - a y[n-delay] with any past (per item, shared or zero) and returns the last delay outputs; proved for signals of at least delay samples and delay >= 2, delay 1 in its own theorem. Falsified: delay 0, no returned state for delay 1, wrong final state for signals shorter than the delay, no working path without the extension, coefficient of shape (1,)."
  },
  {
   "property": "C20",
   "status": "partial",
   "theorems": [
    "Props.C20_tdf2_partial",
    "Props.C20_df2_partial",
    "Props.C20_padding",
    "Props.C20_too_short",
    "Props.C20_tdf2_forward_backward",
    "Props.C20_df2_forward_backward",
    "Props.C20_zero_phase_tdf2",
    "Props.C20_zero_phase_df2",
    "Props.C20_df1_raises",
    "Props.C20_df2_long_numerator",
    "Props.C20_three_axes_merged",
    "Props.C20_three_axes_raises"
   ],
   "note": "filtfilt (df2 and tdf2, every layout, padding mode, pad length and unroll factor): succeeds, keeps the length, is linear, independent per batch item, maps constants to the constant times the squared DC gain, and satisfies the symmetric two-sided equation a(z)a(1/z)V = b(z)b(1/z)x away from the ends (C20_zero_phase_*). Falsified: direct form I raises for batched signals, df2 raises for numerators longer than the denominator."
  },
  {
   "property": "C21",
   "status": "partial",
   "theorems": [
    "Props.C21_polydiv_partial",
    "Props.C21_short_dividend",
    "Props.C21_flat_dividend"
   ],
   "note": "polydiv returns quotient and remainder: descending polynomials satisfy u = q v + r with deg r < deg v, for every batch and sizes, for a dividend at least as long as the divisor. Falsified: shorter dividends and 1-D dividends with a 2-D divisor raise."
  },
  {
   "property": "C22",
   "status": "partial",
   "theorems": [
    "Props.C22_given_basis_partial",
    "Props.C22_out_idx",
    "Props.C22_diagonal_partial",
    "Props.C22_from_matrix_partial",
    "Props.C22_from_matrix_out_idx_partial",
    "Props.C22_repeated_eigenvalue",
    "Props.C22_from_matrix_exact",
    "Props.C22_rejects_batched_eigenvalues",
    "Props.C22_real_readout"
   ],
   "note": "Proved for given eigenvalues with V, Vinv or both (and optionally A), for eigenvalues alone (A = diag L), and from A alone with eigvals trusted: C22_from_matrix_exact says that either the eigenvalues are distinct and no eigenvector starts with 0, and the result is that of state_space, or the call raises (cf. C25). Defects proved: from A alone a repeated eigenvalue raises even if A is diagonalisable (C22_repeated_eigenvalue); the imaginary part is dropped for a real-dtype C on a complex model (C22_real_readout); a batch of eigenvalue lists without V/Vinv is rejected. Mixed-dtype errors of PyTorch are not modelled."
  },
  {
   "property": "C23",
   "status": "partial",
   "theorems": [
    "Props.C23_short_partial",
    "Props.C23_long_partial",
    "Props.C23_complex_taps",
    "Props.C23_zero_pole",
    "Props.C23_repeated_pole",
    "Props.C23_short_signal",
    "Props.C23_flat_numerator"
   ],
   "note": "Equality with the ssm backend for distinct poles (all layouts, both forms, both splits; for long numerators in form df2 real coefficients). Everywhere else the claim is false, with proofs: in form df2 the direct part of a long complex numerator is filtered with conjugated taps (C23_complex_taps), repeated poles raise in both forms, a zero pole raises in df2, a 1-D long numerator raises, a delayed split longer than the signal raises, zi is ignored for long numerators."
  },
  {
   "property": "C24",
   "status": "partial",
   "theorems": [
    "Props.C24_companion",
    "Props.C24_companion_batched",
    "Props.C24_companion_time_varying",
    "Props.C24_companion_recursion",
    "Props.C24_eigenvectors",
    "Props.C24_vandermonde_rejects_batches",
    "Props.C24_eigenvectors_single",
    "Props.C24_vandermonde",
    "Props.C24_companion_rejects_scalar"
   ],
   "note": "companion for (M,), (B,M), (B,N,M); vandermonde and the eigenvector identity for one list of poles. The claim is false for batches: vandermonde of a batch of lists with M >= 2 raises, because torch.vander takes 1-D tensors only (C24_vandermonde_rejects_batches)."
  },
  {
   "property": "C25",
   "status": "partial",
   "theorems": [
    "Props.C25_find_eigenvectors_partial",
    "Props.C25_find_eigenvectors_batch_partial",
    "Props.C25_zero_first_component",
    "Props.C25_zero_first_component_batch",
    "Props.C25_diagonal"
   ],
   "note": "Proved over R and C exactly when no eigenvector of the eigenvalue starts with zero; otherwise the function raises even for simple eigenvalues (C25_zero_first_component, C25_diagonal), so the claim as stated is false. Real square root and linalg.solve are exact."
  },
  {
   "property": "C26",
   "status": "partial",
   "theorems": [
    "Props.C26_full",
    "Props.C26_full_unbatched",
    "Props.C26_discard_end_partial",
    "Props.C26_discard_end_unbatched_partial",
    "Props.C26_one_column"
   ],
   "note": "All T, M, offset, with and without batch axis. With discard_end the case M = 1, offset = 0 is false (C26_one_column: the result is empty)."
  },
  {
   "property": "C27",
   "status": "partial",
   "theorems": [
    "Props.C27_direct",
    "Props.C27_direct_state",
    "Props.C27_transposed_partial",
    "Props.C27_transposed_state_partial",
    "Props.C27_one_tap_transposed",
    "Props.C27_one_tap_one_sample",
    "Props.C27_short_transposed",
    "Props.C27_short_transposed_shape",
    "Props.C27_transposed_complex"
   ],
   "note": "Direct form proved without restriction. Transposed form needs M >= 1 without state and M <= N with state; outside it the code raises or returns wrong shapes (proved). The transposed form conjugates complex taps (proved), hence star in the statement."
  },
  {
   "property": "C28",
   "status": "partial",
   "theorems": [
    "Props.C28_direct",
    "Props.C28_direct_state_partial",
    "Props.C28_transposed_partial",
    "Props.C28_transposed_state_partial",
    "Props.C28_short_transposed",
    "Props.C28_contract",
    "Props.C28_transposed_complex"
   ],
   "note": "Relative to the contract IsLpc of torchlpc.sample_wise_lpc. Transposed form needs M <= N (C28_short_transposed: raises otherwise); final state of the direct form for M <= N only; the transposed form conjugates complex coefficients (proved)."
  },
  {
   "property": "C29",
   "status": "partial",
   "theorems": [
    "Props.C29_fir_after_allpole",
    "Props.C29_allpole_after_fir",
    "Props.C29_transposed_allpole_after_fir_partial",
    "Props.C29_transposed_fir_after_allpole_partial",
    "Props.C29_same_delay_line"
   ],
   "note": "Direct forms proved. Transposed forms: inverse from opposite delay lines and M <= N; with the same delay line the claim is false (C29_same_delay_line)."
  },
  {
   "property": "C30",
   "status": "partial",
   "theorems": [
    "Props.C30_ssm_df2_partial",
    "Props.C30_ssm_tdf2_partial",
    "Props.C30_ssm_df1_partial",
    "Props.C30_ssm_tdf1_partial",
    "Props.C30_torchlpc_df2_partial",
    "Props.C30_torchlpc_df1",
    "Props.C30_torchlpc_tdf1_partial",
    "Props.C30_agree_df2_partial",
    "Props.C30_agree_df1_partial",
    "Props.C30_rejects",
    "Props.C30_tdf1_differ",
    "Props.C30_square",
    "Props.C30_square_df2",
    "Props.C30_unroll",
    "Props.C30_exact_df2",
    "Props.C30_exact_tdf2",
    "Props.C30_exact_df1",
    "Props.C30_exact_tdf1",
    "Props.C30_tdf2_complex"
   ],
   "note": "All four ssm forms and torchlpc df1/df2/tdf1 are proved to compute their time-varying recursions (with state for df2, tdf2), and the backends agree on df1 and df2, for the unroll factors of C07; these are exact: C30_exact_df2, C30_exact_tdf2, C30_exact_df1, C30_exact_tdf1 (second- and higher-order filters: u <= 2, u >= N or u-1 prime; first-order: also u-1 a product of two primes). The default factor is wrong for 21 to 30 samples, for instance. False: per-item coefficients with batch = length (C30_square; C30_square_df2 says for all sizes and values what is returned instead), other unroll factors (C30_unroll), tdf1 differs between backends (C30_tdf1_differ), complex tdf2 conjugates (C30_tdf2_complex). Missing: torchlpc tdf1 with one tap or with more poles than samples (the code raises, C28). torchlpc enters through the contract IsLpc."
  },
  {
   "property": "C31",
   "status": "partial",
   "theorems": [
    "Props.C31_linear_recurrence",
    "Props.C31_state_space_recursion_partial",
    "Props.C31_state_space_partial",
    "Props.C31_fir_direct",
    "Props.C31_fir_direct_state_partial",
    "Props.C31_fir_transposed_partial",
    "Props.C31_fir_transposed_state_partial",
    "Props.C31_lfilter_df2_partial",
    "Props.C31_lfilter_tdf2_partial",
    "Props.C31_lfilter_df1_partial",
    "Props.C31_lfilter_tdf1_partial",
    "Props.C31_lfilter_torchlpc",
    "Props.C31_exact",
    "Props.C31_unroll",
    "Props.C31_square",
    "Props.C31_df1_complex"
   ],
   "note": "lpv functions with coefficients constant in time equal the lti programs for every listed function and form, for the unroll factors u <= 2, u >= N or u-1 a product of at most two primes, which is the exact condition for matrices of size >= 2 (C31_exact). False in general: unroll factor 9 (C31_unroll), per-item coefficients with batch = length (C31_square), complex coefficients of df1 (C31_df1_complex)."
  },
  {
   "property": "C32",
   "status": "partial",
   "theorems": [
    "Props.C32_linear_recurrence",
    "Props.C32_lpv_linear_recurrence",
    "Props.C32_state_space_recursion",
    "Props.C32_lpv_state_space_recursion",
    "Props.C32_state_space",
    "Props.C32_lpv_state_space",
    "Props.C32_fir_partial",
    "Props.C32_fir_direct_partial",
    "Props.C32_fir_transposed_partial",
    "Props.C32_lpv_fir_direct",
    "Props.C32_lpv_fir_direct_state",
    "Props.C32_lpv_fir_transposed_partial",
    "Props.C32_lpv_fir_transposed_state_partial",
    "Props.C32_lfilter_df2",
    "Props.C32_lfilter_tdf2",
    "Props.C32_lfilter_df1",
    "Props.C32_lfilter_tdf1",
    "Props.C32_lpv_lfilter_df2_partial",
    "Props.C32_lpv_lfilter_tdf2_partial",
    "Props.C32_lpv_lfilter_df1",
    "Props.C32_lpv_lfilter_tdf1",
    "Props.C32_lpv_lfilter_torchlpc_partial",
    "Props.C32_lpv_allpole",
    "Props.C32_lpv_allpole_state_partial",
    "Props.C32_lpv_lfilter_torchlpc_df1",
    "Props.C32_lpv_lfilter_torchlpc_tdf1_partial",
    "Props.C32_lpv_allpole_transposed_partial",
    "Props.C32_lpv_allpole_transposed_state_partial",
    "Props.C32_comb_filter_partial",
    "Props.C32_comb_filter_one",
    "Props.C32_filtfilt_tdf2_partial",
    "Props.C32_filtfilt_df2_partial",
    "Props.C32_diag_state_space_partial",
    "Props.C32_diag_lfilter_df2_partial",
    "Props.C32_diag_lfilter_tdf2_partial"
   ],
   "note": "Linear in (x, zi) jointly with every scalar, for linear_recurrence, state_space_recursion, state_space, fir, comb_filter, allpole (both forms), lfilter (LTI all forms; LPV all forms with the ssm backend, df1, df2, tdf1 with torchlpc), filtfilt, diag_state_space and the diagonal lfilter backend. Every unroll factor, also those for which C07 fails. Partial where the value theorems are (size coincidences, transposed forms that raise)."
  },
  {
   "property": "C33",
   "status": "partial",
   "theorems": [
    "Props.C33_linear_recurrence",
    "Props.C33_lpv_linear_recurrence",
    "Props.C33_state_space_recursion",
    "Props.C33_lpv_state_space_recursion",
    "Props.C33_state_space",
    "Props.C33_lpv_state_space",
    "Props.C33_fir_partial",
    "Props.C33_fir_direct_partial",
    "Props.C33_fir_transposed_partial",
    "Props.C33_lpv_fir_direct",
    "Props.C33_lpv_fir_direct_state",
    "Props.C33_lpv_fir_transposed_partial",
    "Props.C33_lpv_fir_transposed_state_partial",
    "Props.C33_lfilter_df2",
    "Props.C33_lfilter_tdf2",
    "Props.C33_lfilter_df1",
    "Props.C33_lfilter_tdf1",
    "Props.C33_lpv_lfilter_df2_partial",
    "Props.C33_lpv_lfilter_tdf2_partial",
    "Props.C33_lpv_lfilter_df1",
    "Props.C33_lpv_lfilter_tdf1",
    "Props.C33_lpv_lfilter_torchlpc_partial",
    "Props.C33_lpv_allpole",
    "Props.C33_lpv_allpole_state_partial",
    "Props.C33_lpv_lfilter_torchlpc_df1",
    "Props.C33_lpv_lfilter_torchlpc_tdf1_partial",
    "Props.C33_lpv_allpole_transposed_partial",
    "Props.C33_lpv_allpole_transposed_state_partial",
    "Props.C33_comb_filter_partial",
    "Props.C33_comb_filter_one",
    "Props.C33_diag_state_space_partial",
    "Props.C33_diag_lfilter_df2_partial",
    "Props.C33_diag_lfilter_tdf2_partial",
    "Props.C33_lpv_linear_recurrence_coeffs",
    "Props.C33_lpv_state_space_coeffs_partial",
    "Props.C33_lpv_lfilter_df2_coeffs_partial",
    "Props.C33_lpv_lfilter_tdf2_coeffs_partial",
    "Props.C33_lpv_state_space_coeffs",
    "Props.C33_lpv_lfilter_df2_coeffs_same_unroll_partial",
    "Props.C33_lpv_lfilter_tdf2_coeffs_same_unroll_partial"
   ],
   "note": "Output up to T depends on the signal up to T for the same functions as C32 (filtfilt is not causal and is excluded), for every unroll factor; for lpv.linear_recurrence, lpv.state_space and lpv.lfilter (df2, tdf2) the coefficients may also change after T (the coeffs theorems with two different unroll factors need the factors of C07). Same restrictions as C32."
  },
  {
   "property": "C34",
   "status": "partial",
   "theorems": [
    "Props.C34_linear_recurrence",
    "Props.C34_lpv_linear_recurrence",
    "Props.C34_state_space_recursion",
    "Props.C34_lpv_state_space_recursion",
    "Props.C34_lpv_state_space_recursion_unroll_partial",
    "Props.C34_state_space",
    "Props.C34_lpv_state_space",
    "Props.C34_lpv_state_space_unroll_partial",
    "Props.C34_lfilter_df2",
    "Props.C34_lfilter_tdf2",
    "Props.C34_lfilter_df1",
    "Props.C34_lfilter_tdf1",
    "Props.C34_lpv_lfilter_df2_partial",
    "Props.C34_lpv_lfilter_df2_unroll_partial",
    "Props.C34_lpv_lfilter_tdf2_partial",
    "Props.C34_lpv_lfilter_tdf2_unroll_partial",
    "Props.C34_lpv_lfilter_df1",
    "Props.C34_lpv_lfilter_df1_unroll_partial",
    "Props.C34_lpv_lfilter_tdf1",
    "Props.C34_lpv_lfilter_tdf1_unroll_partial",
    "Props.C34_lpv_lfilter_torchlpc_partial",
    "Props.C34_lpv_lfilter_torchlpc_df1",
    "Props.C34_lpv_lfilter_torchlpc_tdf1_partial",
    "Props.C34_fir_partial",
    "Props.C34_fir_direct_partial",
    "Props.C34_fir_transposed_partial",
    "Props.C34_lpv_fir_direct",
    "Props.C34_lpv_fir_direct_state",
    "Props.C34_lpv_fir_transposed_partial",
    "Props.C34_lpv_fir_transposed_state_partial",
    "Props.C34_lpv_allpole",
    "Props.C34_lpv_allpole_state_partial",
    "Props.C34_lpv_allpole_transposed_partial",
    "Props.C34_lpv_allpole_transposed_state_partial",
    "Props.C34_comb_filter_partial",
    "Props.C34_comb_filter_one",
    "Props.C34_filtfilt_tdf2_partial",
    "Props.C34_filtfilt_df2_partial"
   ],
   "note": "Item i of a run equals item i' of any other run (any batch sizes and layouts) whose item has the same values: linear_recurrence, state_space_recursion, state_space, lfilter (LTI all forms, LPV all forms with ssm, df1, df2, tdf1 with torchlpc), fir, allpole (both forms), comb_filter, filtfilt. Same unroll factor: every factor; different factors (the unroll_partial theorems): the factors of C07. Partial where the value theorems are (size coincidences, transposed forms that raise). The kernels are covered by C38."
  },
  {
   "property": "C35",
   "status": "partial",
   "theorems": [
    "Props.C35_tangent",
    "Props.C35_backward_shared_partial",
    "Props.C35_backward_batched_partial",
    "Props.C35_backward_single_partial",
    "Props.C35_jvp",
    "Props.C35_agree_partial",
    "Props.C35_empty_fails",
    "Props.C35_cpu_partial"
   ],
   "note": "Reverse and forward rules of the scalar recurrence are the adjoint and the derivative of the recurrence for every shape (a shared, per item, single); partial because they fail for N = 0 (C35_empty_fails) and because a of shape (1,) with several items gets a gradient of shape (B,) whose sum is the gradient (C35_backward_single_partial)."
  },
  {
   "property": "C36",
   "status": "partial",
   "theorems": [
    "Props.C36_tangent",
    "Props.C36_backward_shared_partial",
    "Props.C36_backward_batched_partial",
    "Props.C36_jvp",
    "Props.C36_agree_partial",
    "Props.C36_empty_fails",
    "Props.C36_cpu_partial"
   ],
   "note": "Rules of the time-invariant matrix recurrence, exact for every shape with N > 0; the reverse rule fails for N = 0 (C36_empty_fails)."
  },
  {
   "property": "C37",
   "status": "partial",
   "theorems": [
    "Props.C37_backward_shared_partial",
    "Props.C37_backward_batched_partial",
    "Props.C37_jvp",
    "Props.C37_agree_partial",
    "Props.C37_empty_fails",
    "Props.C37_cpu_partial"
   ],
   "note": "Rules of the time-varying matrix recurrence, exact for every shape with N > 0, forward mode also for N = 0; the reverse rule fails for N = 0 (C37_empty_fails)."
  },
  {
   "property": "C38",
   "status": "proved",
   "theorems": [
    "Props.C38_sequential_case",
    "Props.C38_alternating_case",
    "Props.C38_lti_recur",
    "Props.C38_lti_recurN",
    "Props.C38_recurN",
    "Props.C38_recurN_batched"
   ],
   "note": "For every OpenMP schedule (any interleaving of the memory accesses of the iterations) the ops compute the recurrence."
  },
  {
   "property": "C39",
   "status": "partial",
   "theorems": [
    "Props.C39_lti_recur",
    "Props.C39_lti_recurN_partial",
    "Props.C39_recurN_partial",
    "Props.C39_lti_recurN_out_of_bounds",
    "Props.C39_recurN_out_of_bounds_shared",
    "Props.C39_recurN_out_of_bounds_batched",
    "Props.C39_lti_recurN_out_of_bounds_rank4"
   ],
   "note": "lti_recur: full. lti_recurN, recurN: exact conditions for three-dimensional x; the ops accept inputs that violate them, and then the kernels read out of bounds under every schedule (C39_*_out_of_bounds*)."
  },
  {
   "property": "C40",
   "status": "proved",
   "theorems": [
    "Props.C40_left_case",
    "Props.C40_right_case",
    "Props.C40_assoc_scalar",
    "Props.C40_assoc_two",
    "Props.C40_assoc_any",
    "Props.C40_bracketing",
    "Props.C40_lti_recur",
    "Props.C40_lti_recur2",
    "Props.C40_recur2",
    "Props.C40_host_two",
    "Props.C40_host_any",
    "Props.C40_same",
    "Props.C40_longer_sequence"
   ],
   "note": "The scan operators are associative for every state dimension, every bracketing of an inclusive scan gives the state sequence, and the CUDA and host scan kernels compute the recurrences for every scanner meeting the contract IsScan. C40_longer_sequence records that the CUDA recur2 op accepts a shared A longer than x and then disagrees with the CPU op; the property is about inputs of matching length."
  },
  {
   "property": "C41",
   "status": "partial",
   "theorems": [
    "Props.C41_reduce_contract",
    "Props.C41_cpu_extension",
    "Props.C41_cuda_extension",
    "Props.C41_lti_recursion_partial",
    "Props.C41_lti_state_space_partial",
    "Props.C41_lti_lfilter_partial",
    "Props.C41_lpv_recursion_partial",
    "Props.C41_lpv_state_space_partial",
    "Props.C41_lpv_lfilter_partial",
    "Props.C41_lti_state_space_same_partial",
    "Props.C41_diag_state_space_partial",
    "Props.C41_cpu_cuda",
    "Props.C41_cpu_only_extension_fails",
    "Props.C41_helion_alone_fails",
    "Props.C41_pararnn_alone_fails",
    "Props.C41_lpv_helion_alone_fails",
    "Props.C41_matrix_recurrence_cuda_fails",
    "Props.C41_out_of_bounds",
    "Props.C41_empty_signal",
    "Props.C41_unroll_ignored"
   ],
   "note": "Proved for every environment whose operators meet their contracts and whose packages are an installation that works (LtiInstall/LpvInstall): lti and lpv state_space_recursion, state_space, lfilter, and diag_state_space give the same results as the pure Python path; the CPU extension under every schedule and the CUDA/Helion/ParaRNN stack under every bracketing and tiling meet the hypotheses. Negations proved for the combinations that break it: CPU-only extension with CUDA tensors, Helion or ParaRNN without the extension, empty signals, ignored unroll factors, out-of-bounds reads. For lpv state_space_recursion and state_space every unroll factor is covered (also those for which C07 fails); lpv lfilter needs the factors of C07 only in forms df1 and tdf1."
  },
  {
   "property": "C42",
   "status": "partial",
   "theorems": [
    "Props.C42_lti_recur",
    "Props.C42_lti_recur_cuda",
    "Props.C42_lti_recurN_partial",
    "Props.C42_lti_recur2_partial",
    "Props.C42_recurN_partial",
    "Props.C42_recur2_partial",
    "Props.C42_lti_recur2_cuda_partial",
    "Props.C42_recur2_cuda_partial",
    "Props.C42_lti_recurN_predicts",
    "Props.C42_lti_recur2_predicts",
    "Props.C42_recurN_predicts",
    "Props.C42_recur2_predicts",
    "Props.C42_hl_lti_recurN_predicts",
    "Props.C42_hl_recurN_predicts",
    "Props.C42_more_matrices",
    "Props.C42_longer_sequence",
    "Props.C42_recur2_any_dimension"
   ],
   "note": "lti_recur: proved in full (CPU under every schedule, CUDA under every bracketing). Matrix recurrences: proved for three-dimensional x and as many matrices as batch items / time steps; the full claim is false there (C42_more_matrices, C42_longer_sequence, C42_recur2_any_dimension) since the ops lack checks that the shape functions make. The converse (accepted by the shape function implies computed with the predicted shape) is proved for all ops."
  },
  {
   "property": "C43",
   "status": "partial",
   "theorems": [
    "Props.C43_pole",
    "Props.C43_cspline_partial",
    "Props.C43_first_sample",
    "Props.C43_forms_agree",
    "Props.C43_first_sample_bound",
    "Props.C43_first_sample_not",
    "Props.C43_case"
   ],
   "note": "Proved for all lengths >= 2, signals, batch sizes, both forms, both paddings and every correct backend at every sample but the first. At the first sample the claim is false: exact error (C43_first_sample), bound 2X(2-sqrt 3)^L (C43_first_sample_bound), counterexample (C43_first_sample_not). Forms agree (C43_forms_agree)."
  },
  {
   "property": "C44",
   "status": "partial",
   "theorems": [
    "Props.C44_cubic_spline_partial",
    "Props.C44_factor_one",
    "Props.C44_factors",
    "Props.C44_factor_49",
    "Props.C44_arange_length",
    "Props.C44_arange_scale",
    "Props.C44_wrong_length",
    "Props.C44_failing_factors",
    "Props.C44_good_factors",
    "Props.C44_two_samples",
    "Props.C44_case"
   ],
   "note": "Length, B-spline form at every point and interpolation at every sample but the first, for every factor with arangeLen m = 4m: m*2^k with m <= 48 (C44_good_factors). For every other factor below 2^48 arange has one element too many (C44_arange_length) and every call raises (C44_wrong_length), e.g. 49*2^k, 103*2^k, 107*2^k (C44_failing_factors). Missing: first sample (false, see C43), two samples with reflect padding (C44_two_samples)."
  },
  {
   "property": "C45",
   "status": "partial",
   "theorems": [
    "Props.C45_pointwise",
    "Props.C45_first_entries_partial",
    "Props.C45_all_iterations_partial",
    "Props.C45_affine_partial",
    "Props.C45_exact_guess_partial",
    "Props.C45_intermediate",
    "Props.C45_no_iteration",
    "Props.C45_too_many_iterations",
    "Props.C45_case",
    "Props.C45_last_entry_not"
   ],
   "note": "First k entries exact for arbitrary f, Jacobian, guess and convergence test; exact for affine f; exact guess is kept. Missing: max_iter=0 raises (C45_no_iteration), unroll factors for which C07 fails. Intermediate results have the wrong length (C45_intermediate); the last entry is not exact in general (C45_last_entry_not)."
  },
  {
   "property": "C46",
   "status": "proved",
   "theorems": [
    "Props.C46_chain",
    "Props.C46_empty",
    "Props.C46_raises",
    "Props.C46_append"
   ],
   "note": "chain_functions runs the functions left to right, unpacking exactly the tuples; empty chain, error propagation and splitting of chains are theorems."
  },
  {
   "property": "C47",
   "status": "proved",
   "theorems": [
    "Props.C47_lti",
    "Props.C47_lpv",
    "Props.C47_same",
    "Props.C47_tiler_cases"
   ],
   "note": "For every tiling that covers each index exactly once; tiles of different batch items are run one after the other in the model."
  },
  {
   "property": "C48",
   "status": "partial",
   "theorems": [
    "Props.C48_polyadd",
    "Props.C48_polysub",
    "Props.C48_polymul",
    "Props.C48_polysmul",
    "Props.C48_polysmul_empty",
    "Props.C48_trim_zeros",
    "Props.C48_polyder",
    "Props.C48_polyval_partial",
    "Props.C48_polyval_constant"
   ],
   "note": "Exact for all coefficient lists; polyval of a constant polynomial has the wrong shape and polysmul() without arguments recurses for ever (proved)."
  },
  {
   "property": "C49",
   "status": "partial",
   "theorems": [
    "Props.C49_polydiv_partial",
    "Props.C49_polydiv_exact_partial",
    "Props.C49_polydiv_drops",
    "Props.C49_roots_partial",
    "Props.C49_roots_zero",
    "Props.C49_roots_monomial"
   ],
   "note": "polydiv up to the coefficients the 1e-8 comparison drops, exact when only zeros are dropped; roots for polynomials with at least two non-zero coefficients given a correct eigenvalue solver; the monomial error and the dropped remainder are proved."
  },
  {
   "property": "C50",
   "status": "partial",
   "theorems": [
    "Props.C50_unique_roots_partial",
    "Props.C50_multiplicities_partial",
    "Props.C50_rtype_raises",
    "Props.C50_empty_raises",
    "Props.C50_factors",
    "Props.C50_factors_powers"
   ],
   "note": "proved for rtype=mean and exact separation; multiplicities sum for any tolerance; default rtype=min proved to raise always; factors proved in full"
  },
  {
   "property": "C51",
   "status": "partial",
   "theorems": [
    "Props.C51_residue_partial",
    "Props.C51_shape",
    "Props.C51_rtype_raises",
    "Props.C51_monomial_raises"
   ],
   "note": "proved with exact comparisons when a[0] is not zero and the remainder is not constant with at least two poles, or no pole is simple; otherwise proved that the residues are never a vector"
  },
  {
   "property": "C52",
   "status": "partial",
   "theorems": [
    "Props.C52_residuez_partial",
    "Props.C52_shape",
    "Props.C52_delay_form",
    "Props.C52_rtype_raises"
   ],
   "note": "as C51, in powers of 1/z; first and last coefficient of a not zero"
  },
  {
   "property": "C53",
   "status": "partial",
   "theorems": [
    "Props.C53_real_partial",
    "Props.C53_complex_partial",
    "Props.C53_repeated_complex_raises",
    "Props.C53_negative_gain",
    "Props.C53_rtype_raises",
    "Props.C53_flags",
    "Props.C53_mixed_negation",
    "Props.C53_order_negation"
   ],
   "note": "Proved when all sections have real poles (any multiplicities) and when all poles are complex and distinct. The full claim is false: mixed real/complex sections, repeated complex poles, negative gains and interleaved pairs fail (theorems listed). Exact arithmetic and exact comparison of poles."
  },
  {
   "property": "C54",
   "status": "partial",
   "theorems": [
    "Props.C54_lti_recur_refines",
    "Props.C54_lti_recur_partial",
    "Props.C54_lti_recur_overflow",
    "Props.C54_lti_recur_long",
    "Props.C54_lti_recur_many",
    "Props.C54_lti_recurN_shared",
    "Props.C54_lti_recurN_batched",
    "Props.C54_lti_recurN_partial",
    "Props.C54_lti_recurN_unfiltered",
    "Props.C54_recurN_shared",
    "Props.C54_recurN_batched",
    "Props.C54_recurN_partial",
    "Props.C54_recurN_unfiltered",
    "Props.C54_cuda_lti_recur_partial",
    "Props.C54_cuda_lti_recur_uninitialised",
    "Props.C54_cuda_lti_recur2_shared_partial",
    "Props.C54_cuda_lti_recur2_batched",
    "Props.C54_cuda_lti_recur2_uninitialised",
    "Props.C54_cuda_recur2_shared",
    "Props.C54_cuda_recur2_batched"
   ],
   "note": "Exact limits proved: the ops compute the recurrence iff all offsets stay below 2^31 (in particular with buffers of fewer than 2^31 elements). The full claim is false beyond: signed overflow, unfiltered or uninitialised results (theorems listed). Signed overflow is modelled as an error (undefined behaviour in C++); sizes above 2^32 are not treated by the negative theorems."
  },
  {
   "property": "C55",
   "status": "partial",
   "theorems": [
    "Props.C55_linear_recurrence",
    "Props.C55_state_space_recursion",
    "Props.C55_state_space",
    "Props.C55_fir_partial",
    "Props.C55_lfilter",
    "Props.C55_comb_filter_partial",
    "Props.C55_lpv_linear_recurrence",
    "Props.C55_lpv_fir_direct",
    "Props.C55_lpv_fir_transposed_partial",
    "Props.C55_lpv_allpole",
    "Props.C55_lpv_allpole_transposed_partial",
    "Props.C55_lpv_lfilter_partial",
    "Props.C55_lpv_lfilter_torchlpc_partial",
    "Props.C55_state",
    "Props.C55_lpv_not"
   ],
   "note": "LTI: linear_recurrence, state_space_recursion, state_space, fir, lfilter (all forms), comb_filter, from rest, every delay. LPV with delayed coefficients: linear_recurrence, fir, allpole, lfilter (ssm all forms, torchlpc df1/df2/tdf1). Partial where the value theorems are (transposed fir with one tap, size coincidences, unroll factors of C07). False from another state (C55_state) and for LPV functions with fixed coefficients (C55_lpv_not)."
  },
  {
   "property": "C56",
   "status": "proved",
   "theorems": [
    "Props.C56_transfer",
    "Props.C56_transfer_iff",
    "Props.C56_cascade",
    "Props.C56_commute",
    "Props.C56_inverse",
    "Props.C56_impulse",
    "Props.C56_fir_cascade",
    "Props.C56_linear_recurrence",
    "Props.C56_comb_filter"
   ],
   "note": "lfilter from rest, forms that do not conjugate (df2; every form over real numbers); transfer functions as cross products of coefficient sequences. Also fir (direct), linear_recurrence and comb_filter."
  },
  {
   "property": "C57",
   "status": "partial",
   "theorems": [
    "Props.C57_linear_recurrence",
    "Props.C57_lpv_linear_recurrence",
    "Props.C57_recursion",
    "Props.C57_lpv_recursion_partial",
    "Props.C57_markov",
    "Props.C57_similarity",
    "Props.C57_lfilter"
   ],
   "note": "LTI functions for every unroll factor; lpv.linear_recurrence for every factor; lpv.state_space_recursion for the unroll factors of C07 only (others are wrong, see C07)."
  },
  {
   "property": "C58",
   "status": "proved",
   "theorems": [
    "Props.C58_linear_recurrence",
    "Props.C58_lpv_linear_recurrence",
    "Props.C58_lpv_forgets",
    "Props.C58_comb_filter",
    "Props.C58_comb_filter_state",
    "Props.C58_fir",
    "Props.C58_fir_state",
    "Props.C58_lpv_fir",
    "Props.C58_lfilter",
    "Props.C58_lfilter_real",
    "Props.C58_unstable",
    "Props.C58_unstable_real",
    "Props.C58_bibo",
    "Props.C58_bibo_real",
    "Props.C58_lfilter_forms",
    "Props.C58_unstable_forms",
    "Props.C58_bibo_forms",
    "Props.C58_recursion",
    "Props.C58_recursion_real",
    "Props.C58_recursion_eigenvalue",
    "Props.C58_lfilter_forgets",
    "Props.C58_lfilter_forgets_real"
   ],
   "note": "Exact arithmetic over R and C. lfilter from rest in every form (explicit bound, necessary condition, and the exact characterisation C58_bibo_forms / C58_bibo_real when the numerator cancels no pole on or outside the unit circle), lfilter with initial state (df2, real also tdf2: the state is forgotten at any rate above the largest pole), state_space_recursion (real and complex), first-order recurrences, fir (both forms; with state in direct form; time-varying), comb_filter with and without state. Rounding is in C59, LPV filters of higher order in C60."
  },
  {
   "property": "C59",
   "status": "proved",
   "theorems": [
    "Props.C59_lti_recur_cpu",
    "Props.C59_lti_recur_cuda",
    "Props.C59_lti_recurN_cpu",
    "Props.C59_recurN_cpu",
    "Props.C59_lti_recur2_cuda",
    "Props.C59_recur2_cuda",
    "Props.C59_growth",
    "Props.C59_devices_agree",
    "Props.C59_lti_recur_stable",
    "Props.C59_binary_case",
    "Props.C59_devices_differ"
   ],
   "note": "The registered compiled ops on rounded numbers with relative error eps per operation (no overflow or underflow), real or complex. Bound independent of the length only for lti_recur on the CPU. Helion kernels and Python code are not covered."
  },
  {
   "property": "C60",
   "status": "proved",
   "theorems": [
    "Props.C60_df2",
    "Props.C60_torchlpc_df2",
    "Props.C60_df1",
    "Props.C60_torchlpc_df1",
    "Props.C60_tdf1",
    "Props.C60_torchlpc_tdf1",
    "Props.C60_tdf2",
    "Props.C60_allpole",
    "Props.C60_allpole_transposed",
    "Props.C60_recursion",
    "Props.C60_frozen",
    "Props.C60_frozen_lfilter"
   ],
   "note": "Sufficient condition for all forms and both backends, allpole and the state recursion, exact arithmetic, for the layouts, lengths and unroll factors for which C30, C28 and C07 hold; frozen stability is refuted."
  },
  {
   "property": "C61",
   "status": "partial",
   "theorems": [
    "Props.C61_residuez_partial",
    "Props.C61_sos_real_partial",
    "Props.C61_sos_complex_partial"
   ],
   "note": "parallel form through residuez for the inputs of C52 with GoodShape; through sos2pfe for cascades of C53 with only real poles (with repetitions) or only distinct complex poles; where residuez and sos2pfe fail or return matrices is in C52 and C53"
  },
  {
   "property": "C62",
   "status": "partial",
   "theorems": [
    "Props.C62_given_basis_partial",
    "Props.C62_long_partial",
    "Props.C62_basis_exists",
    "Props.C62_vandermonde_df2",
    "Props.C62_vandermonde_tdf2",
    "Props.C62_override_df2",
    "Props.C62_override_tdf2",
    "Props.C62_basis_without_poles",
    "Props.C62_tdf2_complex",
    "Props.C62_repeated_pole",
    "Props.C62_layout",
    "Props.C62_batched_poles_only",
    "Props.C62_poles_only_partial"
   ],
   "note": "Equality with the ssm backend for every decomposition of the state matrix with the layout of a (exists iff the poles are distinct), for vandermonde(p) in df2 and vandermonde(p).T in tdf2 with real a, and for poles only. The claim is false for complex a in tdf2 (C62_tdf2_complex), repeated poles raise, mixed layouts raise; given poles of another denominator are characterised exactly (C62_override_*)."
  },
  {
   "property": "C63",
   "status": "partial",
   "theorems": [
    "Props.C63_tdf2_partial",
    "Props.C63_df2_partial",
    "Props.C63_given_basis_partial",
    "Props.C63_long_numerator"
   ],
   "note": "Equality for at most P+1 taps and distinct poles, both forms, all paddings, with and without given basis. False for longer numerators (C63_long_numerator, batch size other than 2)."
  },
  {
   "property": "C64",
   "status": "proved",
   "theorems": [
    "Props.C64_steady",
    "Props.C64_transient",
    "Props.C64_rest",
    "Props.C64_response",
    "Props.C64_cosine",
    "Props.C64_determines",
    "Props.C64_state_space",
    "Props.C64_state_space_response",
    "Props.C64_comb_filter"
   ],
   "note": "Exact arithmetic. Complex: form df2 (the other forms conjugate coefficients, C12), with and without initial state; real: every form from rest. Also state_space (transfer matrix) and comb_filter."
  },
  {
   "property": "C65",
   "status": "proved",
   "theorems": [
    "Props.C65_passive",
    "Props.C65_passive_real",
    "Props.C65_lossless",
    "Props.C65_lossless_real",
    "Props.C65_gain"
   ],
   "note": "Exact arithmetic, from rest (C65_gain: from any state). Complex: form df2; real: every form."
  },
  {
   "property": "C66",
   "status": "proved",
   "theorems": [
    "Props.C66_bounded",
    "Props.C66_bounded_real",
    "Props.C66_response",
    "Props.C66_cosine"
   ],
   "note": "Exact arithmetic. One constant and one rate per filter (and per w), for all lengths, paddings, signals and unroll factors; real and complex."
  },
  {
   "property": "C67",
   "status": "partial",
   "theorems": [
    "Props.C67_matrix_power_accumulate_iff",
    "Props.C67_matrices_cumdot_iff",
    "Props.C67_lti_state_space",
    "Props.C67_lpv_state_space",
    "Props.C67_lti_fir",
    "Props.C67_lpv_fir",
    "Props.C67_lpv_allpole",
    "Props.C67_comb_filter_partial",
    "Props.C67_comb_filter_accepts_any_layout",
    "Props.C67_lti_lfilter_partial",
    "Props.C67_df2_accepts_any_rows",
    "Props.C67_lpv_lfilter_partial",
    "Props.C67_lpv_df2_accepts_time_rows",
    "Props.C67_lpv_lfilter_accepts_one_step",
    "Props.C67_torchlpc_lfilter",
    "Props.C67_diag_state_space_partial",
    "Props.C67_filtfilt_partial",
    "Props.C67_diag_initial_state_partial",
    "Props.C67_diag_accepts_one_state",
    "Props.C67_diag_accepts_long_state",
    "Props.C67_lti_linear_recurrence_iff",
    "Props.C67_linear_recurrence_accepts_empty",
    "Props.C67_lpv_linear_recurrence_iff_partial",
    "Props.C67_lpv_linear_recurrence_accepts_rows",
    "Props.C67_lti_recursion_iff",
    "Props.C67_lpv_recursion_iff",
    "Props.C67_companion_iff",
    "Props.C67_vandermonde_iff"
   ],
   "note": "Two state_space functions, fir, allpole, lfilter (every backend), comb_filter, diag_state_space and filtfilt return only for documented shapes; linear_recurrence, state_space_recursion, companion, vandermonde, matrix_power_accumulate and matrices_cumdot return exactly for them. False: df2 accepts a numerator with any number of rows (C67_df2_accepts_any_rows, C67_lpv_df2_accepts_time_rows), lpv.lfilter df2 and tdf2 a numerator for a single time step (C67_lpv_lfilter_accepts_one_step), comb_filter any layout of the state with the right number of elements (C67_comb_filter_accepts_any_layout), lpv.linear_recurrence any two-dimensional coefficient (C67_lpv_linear_recurrence_accepts_rows), lti.linear_recurrence an empty coefficient (C67_linear_recurrence_accepts_empty). diag_state_space with out_idx and one basis per item an initial state that broadcasts (C67_diag_accepts_one_state, C67_diag_accepts_long_state; its exact shapes are in C67_diag_initial_state_partial). Missing: the time axis of b for tdf1 with an empty batch or filter."
  },
  {
   "property": "C68",
   "status": "proved",
   "theorems": [
    "Props.C68_lti_linear_recurrence",
    "Props.C68_lpv_linear_recurrence",
    "Props.C68_lti_state_space_recursion",
    "Props.C68_lpv_state_space_recursion",
    "Props.C68_recursion_limit",
    "Props.C68_matrices_cumdot",
    "Props.C68_polysmul"
   ],
   "note": "Exact depth for all arguments of the four blocked recursions (also ill-shaped ones and unroll factors below two), of _mat_cumdot_runner and of polysmul (at least one argument; without arguments it does not end, C48). The recursion limit is the fuel argument of the modelled functions."
  },
  {
   "property": "C69",
   "status": "proved",
   "theorems": [
    "Props.C69_linear_recurrence",
    "Props.C69_state_space_recursion",
    "Props.C69_state_space",
    "Props.C69_comb_filter",
    "Props.C69_fir",
    "Props.C69_lti_lfilter",
    "Props.C69_lpv_lfilter",
    "Props.C69_helpers",
    "Props.C69_backward",
    "Props.C69_jvp",
    "Props.C69_filtfilt",
    "Props.C69_polydiv",
    "Props.C69_real_as_complex",
    "Props.C69_conjugate",
    "Props.C69_subring",
    "Props.C69_subring_state_space"
   ],
   "note": "All functions listed in the statement, for arguments of every shape. The external function sample_wise_lpc and the op called by the backward rules must have the property themselves (the reference implementation and the modelled recursions have). Not part of the statement: diag_state_space, cspline and newton_solve."
  },
  {
   "property": "C70",
   "status": "proved",
   "theorems": [
    "Props.C70_linear_recurrence",
    "Props.C70_state_space_recursion",
    "Props.C70_state_space",
    "Props.C70_comb_filter",
    "Props.C70_fir",
    "Props.C70_lti_lfilter",
    "Props.C70_lpv_lfilter",
    "Props.C70_helpers",
    "Props.C70_backward",
    "Props.C70_lfilter_zi_values"
   ],
   "note": "All functions listed in the statement, between any two rings. lfilter_zi is excluded in the statement (C70_lfilter_zi_values)."
  },
  {
   "property": "C71",
   "status": "proved",
   "theorems": [
    "Props.C71_lti_lfilter",
    "Props.C71_lpv_lfilter",
    "Props.C71_allpole",
    "Props.C71_state_space",
    "Props.C71_state_space_recursion",
    "Props.C71_linear_recurrence",
    "Props.C71_fir",
    "Props.C71_comb_filter",
    "Props.C71_backward",
    "Props.C71_jvp_scalar",
    "Props.C71_jvp_matrix",
    "Props.C71_jvp_varying",
    "Props.C71_lfilter_derivative"
   ],
   "note": "All functions listed in the statement. The external function sample_wise_lpc and the op called by the backward rules must satisfy C69 themselves. PyTorch's own rules for its native operations are not modelled: the theorems say that the run on dual numbers, which forward mode performs, is the derivative, and that the custom jvp rules agree with it."
  },
  {
   "property": "C72",
   "status": "partial",
   "theorems": [
    "Props.C72_linear_recurrence",
    "Props.C72_lpv_linear_recurrence",
    "Props.C72_state_space_recursion",
    "Props.C72_lpv_state_space_recursion_partial",
    "Props.C72_state_space",
    "Props.C72_lpv_state_space_partial",
    "Props.C72_fir_partial",
    "Props.C72_lfilter",
    "Props.C72_lfilter_df2_state",
    "Props.C72_lfilter_tdf2_state",
    "Props.C72_comb_filter_partial",
    "Props.C72_lpv_fir_direct",
    "Props.C72_lpv_fir_transposed_partial",
    "Props.C72_lpv_allpole",
    "Props.C72_lpv_allpole_transposed_partial",
    "Props.C72_lpv_lfilter_partial",
    "Props.C72_lpv_lfilter_torchlpc_partial",
    "Props.C72_complex"
   ],
   "note": "False for complex factors in the forms that conjugate coefficients (C72_complex). For the state-space functions and lpv.lfilter the same restrictions on unroll factor and coinciding sizes as in C07, C09 and C30; comb_filter with the extension and without state; backend torchlpc: df1, df2, tdf1 (tdf2 raises)."
  },
  {
   "property": "C73",
   "status": "partial",
   "theorems": [
    "Props.C73_fir",
    "Props.C73_lfilter",
    "Props.C73_comb_filter_partial",
    "Props.C73_lpv_fir_direct",
    "Props.C73_lpv_allpole",
    "Props.C73_lpv_fir_transposed",
    "Props.C73_lpv_allpole_transposed",
    "Props.C73_lpv_lfilter_partial",
    "Props.C73_lpv_lfilter_torchlpc",
    "Props.C73_lpv_tdf1"
   ],
   "note": "False for the time-varying lfilter in form tdf1 with backend ssm (C73_lpv_tdf1); proved for all other functions and forms of the statement (comb_filter with the extension; time-varying ones under the restrictions of C17, C27, C28 and C30 on one tap, short signals, unroll factor and coinciding sizes)."
  },
  {
   "property": "C74",
   "status": "partial",
   "theorems": [
    "Props.C74_lti_fir",
    "Props.C74_lti_lfilter",
    "Props.C74_lti_lfilter_real",
    "Props.C74_comb_filter",
    "Props.C74_lti_linear_recurrence",
    "Props.C74_lpv_linear_recurrence",
    "Props.C74_lti_state_space",
    "Props.C74_lpv_state_space",
    "Props.C74_lpv_fir",
    "Props.C74_lpv_allpole",
    "Props.C74_lpv_lfilter_partial",
    "Props.C74_lpv_lfilter_torchlpc",
    "Props.C74_lpv_tdf1"
   ],
   "note": "All functions and pairs named, from rest (with states for linear_recurrence and state_space). Partial because the claim is false for the time-varying forms df1/tdf1 of backend ssm (C74_lpv_tdf1: tdf1 uses the coefficients of the wrong sample); they are transposes with backend torchlpc. The time-varying unroll factors are those for which the recursion is correct (C07), and per-item time-varying numerators need batch != length (C30_square)."
  },
  {
   "property": "C75",
   "status": "proved",
   "theorems": [
    "Props.C75_lti_linear_recurrence",
    "Props.C75_lpv_linear_recurrence",
    "Props.C75_lti_state_space_recursion",
    "Props.C75_lpv_state_space_recursion",
    "Props.C75_lti_state_space",
    "Props.C75_lpv_state_space",
    "Props.C75_lti_fir",
    "Props.C75_lpv_fir",
    "Props.C75_lti_lfilter",
    "Props.C75_magnitude",
    "Props.C75_lti_lfilter_states",
    "Props.C75_comb_filter",
    "Props.C75_lpv_allpole",
    "Props.C75_lpv_lfilter_rest",
    "Props.C75_lpv_lfilter_states",
    "Props.C75_lpv_lfilter_df1",
    "Props.C75_lpv_lfilter_torchlpc",
    "Props.C75_monotone",
    "Props.C75_not_monotone"
   ],
   "note": "Two different coefficient rings with any compatible relations; monotone filters (C75_monotone) and the bound of complex filters by real ones (C75_magnitude) as corollaries. The sign condition is needed (C75_not_monotone). Form tdf1 of lpv.lfilter with backend ssm, which uses coefficients of the wrong sample (C30), is not covered."
  },
  {
   "property": "C76",
   "status": "proved",
   "theorems": [
    "Props.C76_convert",
    "Props.C76_unique",
    "Props.C76_not_conversely"
   ],
   "note": "C76_not_conversely shows why only one direction holds. Time-varying filters are not covered: their forms are different filters (C30)."
  },
  {
   "property": "C77",
   "status": "proved",
   "theorems": [
    "Props.C77_lti_state_space",
    "Props.C77_lpv_state_space"
   ],
   "note": "Generalises C57_similarity to systems of different sizes and to time-varying coordinates."
  },
  {
   "property": "C78",
   "status": "proved",
   "theorems": [
    "Props.C78_lti_series",
    "Props.C78_lti_parallel",
    "Props.C78_lpv_series",
    "Props.C78_lpv_parallel"
   ],
   "note": "For constant and time-varying systems, with states."
  },
  {
   "property": "C79",
   "status": "proved",
   "theorems": [
    "Props.C79_lti_linear_recurrence",
    "Props.C79_lpv_linear_recurrence",
    "Props.C79_lti_state_space_recursion",
    "Props.C79_lpv_state_space_recursion",
    "Props.C79_lti_state_space",
    "Props.C79_lpv_state_space",
    "Props.C79_not_batch_eq_length",
    "Props.C79_lti_lfilter",
    "Props.C79_lti_lfilter_states",
    "Props.C79_lpv_lfilter_states",
    "Props.C79_lpv_lfilter_torchlpc",
    "Props.C79_comb_filter"
   ],
   "note": "Both calls for the pairs of layouts of Spec; the torchlpc backend and lti.lfilter/comb_filter from rest, df2/tdf2 (lti and lpv ssm) with a state. C79_not_batch_eq_length shows the excluded case B = N."
  },
  {
   "property": "C80",
   "status": "proved",
   "theorems": [
    "Props.C80_fibonacci",
    "Props.C80_steady_start"
   ],
   "note": "Both README examples in full; lengths, filters and initial values arbitrary."
  },
  {
   "property": "C81",
   "status": "proved",
   "theorems": [
    "Props.C81_stable",
    "Props.C81_response",
    "Props.C81_cutoff",
    "Props.C81_run",
    "Props.C81_constant",
    "Props.C81_identifies",
    "Props.C81_not_nyquist",
    "Props.C81_not_zero"
   ],
   "note": "Real arithmetic. C81_not_nyquist and C81_not_zero show that both ends of the frequency range must be excluded."
  },
  {
   "property": "C82",
   "status": "proved",
   "theorems": [
    "Props.C82_periodic",
    "Props.C82_steady_state",
    "Props.C82_settles",
    "Props.C82_marginal",
    "Props.C82_state_space_periodic",
    "Props.C82_lpv_state_space_periodic",
    "Props.C82_state_space_steady_state",
    "Props.C82_lpv_state_space_steady_state",
    "Props.C82_state_space_eigenvalues",
    "Props.C82_state_space_settles"
   ],
   "note": "periodic output for any ring (lfilter in tdf2, state_space of both kinds); one returning state of a stable real filter, and of state_space by a determinant or the eigenvalues; settling from any state (tdf2, lti.state_space) and from rest in every form; running sum as counterexample"
  },
  {
   "property": "C83",
   "status": "proved",
   "theorems": [
    "Props.C83_tdf2_observe",
    "Props.C83_df2_reach",
    "Props.C83_df2_blind",
    "Props.C83_tdf2_stuck",
    "Props.C83_state_space_observe",
    "Props.C83_state_space_reach",
    "Props.C83_lpv_tdf2_observe",
    "Props.C83_lpv_df2_reach"
   ],
   "note": "exact state for given outputs (tdf2) and exact signal for a given final state (df2), time-invariant and time-varying; counterexamples for the other form; M samples suffice for lti.state_space"
  },
  {
   "property": "C84",
   "status": "proved",
   "theorems": [
    "Props.C84_lfilter",
    "Props.C84_lfilter_sharp",
    "Props.C84_state_space",
    "Props.C84_state_space_sharp",
    "Props.C84_identify",
    "Props.C84_identify_not"
   ],
   "note": "Same output for all signals just when the same for one impulse of max(K+P', K'+P) samples, for every two filters of lti.lfilter at rest; sharp; in lowest terms the test identifies the coefficients; and M+M'+1 samples for lti.state_space, any ring (M+M' samples do not suffice)."
  },
  {
   "property": "C85",
   "status": "proved",
   "theorems": [
    "Props.C85_lti_inverse",
    "Props.C85_lti_feedback",
    "Props.C85_lpv_inverse",
    "Props.C85_lpv_feedback",
    "Props.C85_df2_inverse",
    "Props.C85_tdf2_inverse",
    "Props.C85_lpv_df2_inverse",
    "Props.C85_lpv_tdf2_inverse"
   ],
   "note": "Inverse by a left inverse of D and the unique solution of an output feedback loop, lti.state_space (every unroll factor) and lpv.state_space (factors of C07), any ring; inverse filters with states for lfilter df2 and tdf2, lti and lpv (ssm, batch size different from length)."
  },
  {
   "property": "C86",
   "status": "proved",
   "theorems": [
    "Props.C86_lti_dissipation",
    "Props.C86_lti_contraction",
    "Props.C86_lti_contraction_only",
    "Props.C86_lti_lossless",
    "Props.C86_lpv_dissipation",
    "Props.C86_lpv_contraction",
    "Props.C86_lpv_lossless"
   ],
   "note": "Dissipation inequality for arbitrary storage and supply, energy bound for contractive and energy balance for lossless real systems, lti.state_space (every unroll factor) and lpv.state_space (factors of C07)."
  },
  {
   "property": "C87",
   "status": "proved",
   "theorems": [
    "Props.C87_exchange",
    "Props.C87_reverse",
    "Props.C87_linear_phase"
   ],
   "note": "Exchange of taps and signal, reversal and linear phase for fir in direct form without state, any ring."
  },
  {
   "property": "C88",
   "status": "proved",
   "theorems": [
    "Props.C88_mean",
    "Props.C88_white",
    "Props.C88_covariance",
    "Props.C88_lpv_covariance"
   ],
   "note": "Mean and white-noise correlations of lfilter started at rest; covariance recursion of lti.state_space (every unroll factor) and lpv.state_space (factors of C07). A mean is any linear functional on the functions of the outcome; exact arithmetic in any commutative ring."
  },
  {
   "property": "C89",
   "status": "proved",
   "theorems": [
    "Props.C89_blocks",
    "Props.C89_lpv_blocks"
   ],
   "note": "lti.state_space (every unroll factor) and lpv.state_space (factors of C07) with batched matrices, a vector signal and an initial state; any block length; exact arithmetic in any commutative ring."
  },
  {
   "property": "C90",
   "status": "proved",
   "theorems": [
    "Props.C90_recursion",
    "Props.C90_lpv_recursion",
    "Props.C90_linear_recurrence",
    "Props.C90_lpv_linear_recurrence"
   ],
   "note": "Backward runs of linear_recurrence and state_space_recursion, lti (every unroll factor) and lpv (state_space_recursion: factors of C07); any commutative ring."
  },
  {
   "property": "C91",
   "status": "proved",
   "theorems": [
    "Props.C91_observer",
    "Props.C91_deadbeat",
    "Props.C91_lpv_observer"
   ],
   "note": "lti.state_space (every unroll factor) and lpv.state_space (factors of C07) with batched matrices; the estimate is the state of the second call; exact arithmetic in any commutative ring."
  },
  {
   "property": "C92",
   "status": "proved",
   "theorems": [
    "Props.C92_forget",
    "Props.C92_fir",
    "Props.C92_lpv_forget"
   ],
   "note": "lti.state_space (every unroll factor), lpv.state_space (factors of C07) with batched matrices and lti.fir in direct form; any commutative ring."
  }
 ]
}