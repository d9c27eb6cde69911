{"id": "C01", "title": "Blocked scalar LTI recurrence equals the plain recurrence", "statement": "lti.linear_recurrence(a, init, x, unroll_factor=u) returns, for every row b and time t, the value h[b,t] of h[b,t] = a[b]*h[b,t-1] + x[b,t] with h[b,-1] = init[b]; the result has the shape of x and does not depend on u, on whether N is a multiple of u, nor on whether a and init are 0-D, length-1 or per-batch.", "quantifier": "every batch size, every length N >= 1, every unroll factor >= 1, every coefficient, initial state and input over any commutative ring with involution, every admitted layout of a and init", "why_tests_cant": "the blocked path recurses to a depth that depends on N and u and pads by a remainder; tests sample a handful of (N,u) pairs", "anchors": ["philtorch/lti/recur.py: linear_recurrence, _scalar_recursion_loop"]}
{"id": "C02", "title": "Blocked scalar time-varying recurrence equals the plain recurrence", "statement": "lpv.linear_recurrence(a, init, x, unroll_factor=u) returns h[b,t] = a[b,t]*h[b,t-1] + x[b,t] with h[b,-1] = init[b] (a shared over the batch when it is 1-D), independent of u and of the padding remainder.", "quantifier": "every batch size, length N >= 1, unroll factor >= 1, coefficient sequence, initial state and input", "why_tests_cant": "the zero padding of a and x and the recursion on block products only show up for particular (N,u); tests use one pair", "anchors": ["philtorch/lpv/recur.py: linear_recurrence, _scalar_recursion_loop"]}
{"id": "C03", "title": "Accumulated matrix powers", "statement": "matrix_power_accumulate(A, n) returns the stack [A, A^2, ..., A^n] for n >= 1, the identity with a singleton axis for n = 0, and [A^-1, ..., A^-|n|] for n < 0, whatever factorisation of n into factors >= 1 is used internally.", "quantifier": "every matrix size, any number of batch axes, every n, every list of factors whose product is n", "why_tests_cant": "the result is assembled by a recursion over the factorisation of n; a test covers a few n", "anchors": ["philtorch/mat.py: matrix_power_accumulate, _mat_pwr_accum_runner"]}
{"id": "C04", "title": "Cumulative matrix products", "statement": "matrices_cumdot([A_1,...,A_M]) returns [A_1, A_1 A_2, ..., A_1 ... A_M].", "quantifier": "every M >= 1, every matrix size, every sequence of (non-commuting) matrices", "why_tests_cant": "correctness depends on the prime factorisation of M; the test-suite only reaches prime M or commuting matrices", "anchors": ["philtorch/mat.py: matrices_cumdot, _mat_cumdot_runner"]}
{"id": "C05", "title": "Blocked LTI state recursion equals the plain recursion", "statement": "lti.state_space_recursion(A, zi, x, unroll_factor=u) returns the state sequence h_t = A h_{t-1} + x_t with h_{-1} = zi, for A of shape (M,M) or (B,M,M), and treats a 2-D x as x_t*[1,0,...,0]; the result is independent of u and of the padding remainder.", "quantifier": "every batch size, state dimension M >= 1, length N >= 1, unroll factor >= 1, shared or batched A, 2-D or 3-D x", "why_tests_cant": "four shape variants times a recursion in N/u with zero padding; tests fix T and u", "anchors": ["philtorch/lti/ssm.py: state_space_recursion, _recursion_loop"]}
{"id": "C06", "title": "Output index selection commutes with the recursion", "statement": "state_space_recursion(..., out_idx=i) equals the i-th component of the full state sequence, for the blocked and the unblocked path alike, and negative i counts from the end.", "quantifier": "every index in range, every unroll factor, 2-D and 3-D input, shared and batched A", "why_tests_cant": "the blocked path builds different matrices when out_idx is set; tests only check the first components of an unblocked companion recursion", "anchors": ["philtorch/lti/ssm.py: state_space_recursion, _recursion_loop", "philtorch/lpv/ssm.py: state_space_recursion"]}
{"id": "C07", "title": "Blocked time-varying state recursion equals the plain recursion", "statement": "lpv.state_space_recursion(A, zi, x, unroll_factor=u) returns h_t = A_t h_{t-1} + x_t with h_{-1} = zi for A of shape (N,M,M) or (B,N,M,M), independent of u.", "quantifier": "every batch size, state dimension, length N >= 1, unroll factor u >= 1 and every sequence of state matrices", "why_tests_cant": "the blocked path multiplies prefixes of matrices; the tests use unroll factors 3, 4 and 7 or time-constant matrices, which cannot expose an ordering mistake", "anchors": ["philtorch/lpv/ssm.py: state_space_recursion, _recursion_loop", "philtorch/mat.py: matrices_cumdot"]}
{"id": "C08", "title": "LTI state-space output equation", "statement": "lti.state_space(A, x, B, C, D, zi) returns y_t = C h_t + D x_t with h_0 = zi (zero when absent) and h_{t+1} = A h_t + B x_t, together with zf = h_N exactly when zi is given.", "quantifier": "every batch size, length N >= 1, state dimension, unroll factor, and every documented shape of B, C, D", "why_tests_cant": "the shape dispatch has 4x4x8 documented combinations for values, tests only check output shapes", "anchors": ["philtorch/lti/ssm.py: state_space, _ssm_C_D"]}
{"id": "C09", "title": "Time-varying state-space output equation", "statement": "lpv.state_space returns y_t = C_t h_t + D_t x_t with h_{t+1} = A_t h_t + B_t x_t and zf = h_N exactly when zi is given.", "quantifier": "every batch size, length, state dimension and every documented shape of B, C, D, including batch size equal to the number of time steps", "why_tests_cant": "tests only check shapes for one batch size and one length; the shape dispatch is ambiguous when sizes coincide", "anchors": ["philtorch/lpv/ssm.py: state_space"]}
{"id": "C10", "title": "State-space streaming", "statement": "Splitting a signal at any point and passing the final state of the first call as the initial state of the second gives the same output and the same final state as one call, for lti.state_space and lpv.state_space.", "quantifier": "every split point, every number of chunks, every signal and system", "why_tests_cant": "quantifies over all split points and histories of calls", "anchors": ["philtorch/lti/ssm.py: state_space", "philtorch/lpv/ssm.py: state_space"]}
{"id": "C11", "title": "lfilter computes the difference equation in every form", "statement": "For real coefficients, lti.lfilter(b, a, x, form=f) with backend 'ssm' returns the unique y with y[n] = sum_j b[j] x[n-j] - sum_k a[k] y[n-k] (zero initial state), for each of the forms df1, df2, tdf1, tdf2; hence the forms agree.", "quantifier": "every numerator and denominator order (including unequal ones) with filter order >= 1, every length N >= 1, every input, every batch layout", "why_tests_cant": "tests compare with scipy on random signals of a few sizes up to a tolerance", "anchors": ["philtorch/lti/filtering.py: lfilter, _ssm_lfilter, fir", "philtorch/mat.py: companion"]}
{"id": "C12", "title": "lfilter on complex coefficients", "statement": "The four forms of lti.lfilter agree for complex coefficients too, i.e. each computes the difference equation with the given b and a.", "quantifier": "every complex b, a, x", "why_tests_cant": "no test uses complex coefficients", "anchors": ["philtorch/lti/filtering.py: _ssm_lfilter, fir"]}
{"id": "C13", "title": "Transposed direct form II state convention", "statement": "For real coefficients, lti.lfilter(b, a, x, zi, form='tdf2') produces the same outputs and the same final state as the textbook transposed direct form II delay-line update (y = b0 x + z_0; z_i' = b_{i+1} x + z_{i+1} - a_{i+1} y) started from zi.", "quantifier": "every order, every initial delay line, every input of every length", "why_tests_cant": "tests check some random instances up to a tolerance", "anchors": ["philtorch/lti/filtering.py: _ssm_lfilter (tdf2)"]}
{"id": "C14", "title": "Direct form II state convention", "statement": "lti.lfilter(b, a, x, zi, form='df2') equals the textbook direct form II: w[n] = x[n] - sum a_k w[n-k], y[n] = sum b_j w[n-j] where zi lists w[-1], w[-2], ...; the final state lists the last values of w.", "quantifier": "every order, every initial history, every input", "why_tests_cant": "no test fixes the meaning of the df2 state", "anchors": ["philtorch/lti/filtering.py: _ssm_lfilter (df2)"]}
{"id": "C15", "title": "lfiltic resumes a filter from its past", "statement": "If y and x satisfy the difference equation over the whole time axis, then filtering the future inputs with form tdf2 and zi = lfiltic(b, a, past outputs, past inputs) (most recent first) gives the true future outputs.", "quantifier": "every order of b and a >= 1, every past, every future", "why_tests_cant": "quantifies over complete histories", "anchors": ["philtorch/lti/filtering.py: lfiltic, lfilter"]}
{"id": "C16", "title": "lfilter_zi is a steady state", "statement": "With zi = lfilter_zi(a, b) the response of lfilter (tdf2, or df2 with transpose=False) to a constant input c and initial state c*zi is constant, equal to c times the DC gain sum(b)/(1+sum(a)), and the final state is again c*zi.", "quantifier": "every stable or unstable filter with 1+sum(a) invertible, every constant, every length", "why_tests_cant": "holds for every length; test checks against scipy numerically", "anchors": ["philtorch/lti/filtering.py: lfilter_zi, lfilter"]}
{"id": "C17", "title": "FIR filtering", "statement": "lti.fir(b, x, zi) with transpose=False returns y[n] = sum_j b[j] x[n-j], where zi lists the past inputs most recent first, and zf lists the last M inputs; with transpose=True it returns the same y for zero state, adds the transposed delay line zi, and returns the next delay line.", "quantifier": "every number of taps M+1 >= 1, every N >= 1 (also N < M), every state", "why_tests_cant": "tests do not cover one-tap filters nor chunks shorter than the filter", "anchors": ["philtorch/lti/filtering.py: fir"]}
{"id": "C18", "title": "Streaming with lfilter and fir", "statement": "Filtering a signal chunk by chunk, feeding each final state into the next call, equals filtering it in one go, for lti.lfilter (df2, tdf2), lti.fir and lpv.fir (both directions), lpv.allpole and lti.comb_filter, whatever the chunk lengths.", "quantifier": "every way of cutting the signal into non-empty chunks", "why_tests_cant": "quantifies over all ways of cutting the signal", "anchors": ["philtorch/lti/filtering.py: lfilter, fir, comb_filter", "philtorch/lpv/filtering.py: fir, allpole"]}
{"id": "C19", "title": "Comb filter", "statement": "comb_filter(a, delay, x, zi) returns y[n] = x[n] - a*y[n-delay] with y[-1-i] = zi[i], and zf lists the last `delay` outputs most recent first; it works with and without the compiled extension.", "quantifier": "every delay >= 1, length N >= 1 (not necessarily a multiple of delay), batch, optional state, extension loaded or not", "why_tests_cant": "the folded layout interacts with the remainder N mod delay; tests use a few values and one build", "anchors": ["philtorch/lti/filtering.py: comb_filter"]}
{"id": "C20", "title": "Zero-phase filtering", "statement": "filtfilt returns a signal of the same length as x for every documented form, is linear in x, and maps a constant signal to the constant times the squared DC gain exactly. The result V has zero phase: a(z)a(1/z)V = b(z)b(1/z)x at all times at least the order away from the ends of the padded signal.", "quantifier": "every padding length smaller than N, every filter with 1+sum(a) invertible, each documented form", "why_tests_cant": "exact DC behaviour for all lengths and filters cannot be sampled", "anchors": ["philtorch/lti/filtering.py: filtfilt, lfilter_zi"]}
{"id": "C21", "title": "Polynomial division", "statement": "polydiv(u, v) returns q, r with u = q*v + r, len(r) = len(v)-1 and len(q) = len(u)-len(v)+1, when the leading coefficient of v is invertible; when u is shorter than v it returns an empty quotient and u.", "quantifier": "every length of u and v, every coefficient field, every batch", "why_tests_cant": "an algebraic identity over all lengths", "anchors": ["philtorch/poly.py: polydiv"]}
{"id": "C22", "title": "Diagonalised state space", "statement": "diag_state_space(x, L, V, Vinv, B, C, D, zi) equals state_space with A = V diag(L) V^-1, for every unroll factor.", "quantifier": "every diagonalisable A with given eigen-decomposition, every shape of B, C, D, every input length", "why_tests_cant": "an identity between two algorithms over all inputs", "anchors": ["philtorch/lti/ssm.py: diag_state_space"]}
{"id": "C23", "title": "Diagonal filtering backend", "statement": "lti.lfilter(backend='diag_ssm') computes the same difference equation as the default backend, including numerators longer than the denominator in both the delayed and the non-delayed decomposition.", "quantifier": "every order with distinct poles, both decompositions, every input length", "why_tests_cant": "numerically ill conditioned for tests; the algebraic split b = q*a + r is the content", "anchors": ["philtorch/lti/filtering.py: _diag_ssm_lfilter", "philtorch/poly.py: polydiv"]}
{"id": "C24", "title": "Companion and Vandermonde matrices", "statement": "companion(a) has characteristic recursion w[n] = -sum a_k w[n-k] (first row -a, shift below), and for the roots p_i of z^M + a_1 z^(M-1) + ... + a_M the columns of vandermonde(p) are eigenvectors: companion(a) V = V diag(p). Both functions accept a batch (..., M), as documented, and then act batch element by batch element.", "quantifier": "every order M >= 1, every coefficient vector and every tuple of roots", "why_tests_cant": "an algebraic identity over all orders", "anchors": ["philtorch/mat.py: companion, vandermonde"]}
{"id": "C25", "title": "Eigenvectors from eigenvalues", "statement": "find_eigenvectors(A, L) returns unit-norm columns v_i with A v_i = L_i v_i whenever L_i is a simple eigenvalue of A.", "quantifier": "every square complex matrix and every list of its eigenvalues", "why_tests_cant": "test checks random matrices; the least-squares trick silently needs a non-zero first component", "anchors": ["philtorch/mat.py: find_eigenvectors"]}
{"id": "C26", "title": "Diagonal shift", "statement": "diag_shift(c, offset, discard_end) returns s with s[t,m] = c[t-m-offset, m], zero outside the range of c, of length T + M - 1 + offset, or T when discard_end is set.", "quantifier": "every T, M >= 1, offset >= 0, both flags", "why_tests_cant": "implemented by a flatten/unflatten trick whose off-by-one behaviour depends on T, M and offset", "anchors": ["philtorch/lpv/utils.py: diag_shift"]}
{"id": "C27", "title": "Time-varying FIR", "statement": "lpv.fir with transpose=False returns y[t] = sum_j b[t,j] x[t-j] (past inputs in zi, most recent first); with transpose=True it returns y[t] = sum_j b[t-j,j] x[t-j] plus the delay line zi, and the final state is what is left in the delay line.", "quantifier": "every T >= 1, number of taps >= 1, coefficient trajectories, states", "why_tests_cant": "quantifies over all coefficient trajectories and lengths", "anchors": ["philtorch/lpv/filtering.py: fir", "philtorch/lpv/utils.py: diag_shift"]}
{"id": "C28", "title": "Time-varying all-pole", "statement": "lpv.allpole with transpose=False returns y[t] = x[t] - sum_k a[t,k] y[t-k]; with transpose=True y[t] = x[t] - sum_k a[t-k,k] y[t-k] plus the delay line zi; final states continue the filter.", "quantifier": "every T >= 1, order >= 1, coefficient trajectory, state", "why_tests_cant": "quantifies over all coefficient trajectories and lengths", "anchors": ["philtorch/lpv/filtering.py: allpole"]}
{"id": "C29", "title": "All-pole and FIR are inverse", "statement": "lpv.fir with taps [1, a] undoes lpv.allpole with coefficients a and vice versa, when both start from the same state, in the direct and in the transposed form.", "quantifier": "every coefficient trajectory, order, length and state", "why_tests_cant": "exact inversion for all trajectories", "anchors": ["philtorch/lpv/filtering.py: fir, allpole"]}
{"id": "C30", "title": "Time-varying lfilter semantics and backends", "statement": "lpv.lfilter computes, for df1: y[t] = sum_j b[t,j] x[t-j] - sum_k a[t,k] y[t-k]; df2: w[t] = x[t] - sum a[t,k] w[t-k], y[t] = sum b[t,j] w[t-j]; tdf2: the time-varying transposed delay line; and the backends 'ssm' and 'torchlpc' agree on every form both support.", "quantifier": "every coefficient trajectory, order, length, batch layout (including batch size equal to N)", "why_tests_cant": "tests only use time-constant coefficients to compare backends", "anchors": ["philtorch/lpv/filtering.py: lfilter, _ssm_lfilter, _torchlpc_lfilter"]}
{"id": "C31", "title": "Time-constant coefficients reduce LPV to LTI", "statement": "Running the lpv functions with coefficients that do not change in time gives the lti result (linear_recurrence, state_space_recursion, state_space, fir, lfilter).", "quantifier": "every system, length, unroll factor for which the lpv function is correct", "why_tests_cant": "an identity over all inputs", "anchors": ["philtorch/lpv/", "philtorch/lti/"]}
{"id": "C32", "title": "Linearity and zero-state response", "statement": "Every filtering function is linear in (x, zi) jointly: a linear combination of inputs and states gives the same linear combination of outputs and final states.", "quantifier": "every pair of inputs and states, every scalar, every filter", "why_tests_cant": "superposition for all inputs", "anchors": ["philtorch/lti/filtering.py", "philtorch/lti/ssm.py", "philtorch/lpv/filtering.py", "philtorch/lpv/ssm.py"]}
{"id": "C33", "title": "Causality", "statement": "The output at time t depends only on inputs (and coefficients) up to time t: changing x after t does not change y up to t, in spite of padding and blocking.", "quantifier": "every t, every unroll factor, every pair of inputs that agree up to t", "why_tests_cant": "padding/blocking could leak future samples for particular sizes only", "anchors": ["philtorch/lti/recur.py", "philtorch/lti/ssm.py", "philtorch/lpv/recur.py", "philtorch/lpv/ssm.py", "philtorch/lti/filtering.py"]}
{"id": "C34", "title": "Batch independence", "statement": "Row b of every result depends only on row b of the inputs and on the shared parameters; running a batch equals running each row alone.", "quantifier": "every batch size and every row, every function with a batch axis", "why_tests_cant": "folded and flattened layouts could leak between rows for particular sizes only", "anchors": ["philtorch/lti/", "philtorch/lpv/", "philtorch/csrc/"]}
{"id": "C35", "title": "Backward pass of the scalar recurrence", "statement": "The gradients returned for a, init and x by the scalar recurrence op are the adjoint of its derivative: <grad_out, d out> = <grad_a, da> + <grad_init, dinit> + <grad_x, dx> for every perturbation (complex conjugation included), for shared and per-batch a; the forward-mode derivative equals the derivative of the recurrence.", "quantifier": "every batch, length, coefficient, output gradient and perturbation", "why_tests_cant": "gradcheck samples finitely many perturbations with finite differences", "anchors": ["philtorch/lti/recur.py: LTIRecurrence", "philtorch/__init__.py: _lti_recur_backward"]}
{"id": "C36", "title": "Backward pass of the LTI matrix recurrence", "statement": "Same adjoint and forward-mode statements for the LTI matrix recurrence (A, zi, x), shared and batched A; the registered backward and the autograd Function agree.", "quantifier": "every batch, length, state dimension, gradient and perturbation", "why_tests_cant": "gradcheck samples", "anchors": ["philtorch/lti/ssm.py: LTIMatrixRecurrence", "philtorch/__init__.py: _lti_recurN_backward"]}
{"id": "C37", "title": "Backward pass of the time-varying matrix recurrence", "statement": "Same adjoint and forward-mode statements for the time-varying matrix recurrence, shared and batched A_t.", "quantifier": "every batch, length, state dimension, gradient and perturbation", "why_tests_cant": "gradcheck samples", "anchors": ["philtorch/lpv/ssm.py: MatrixRecurrence", "philtorch/__init__.py: _recurN_backward"]}
{"id": "C38", "title": "CPU kernels compute the recurrence under every thread schedule", "statement": "The compiled CPU kernels return h_t = A_t h_{t-1} + x_t (scalar, matrix; shared, batched; LTI, LPV) whatever interleaving of the per-batch iterations the OpenMP runtime picks.", "quantifier": "every interleaving of the per-batch loops, every shape", "why_tests_cant": "data races and schedules cannot be enumerated by tests", "anchors": ["philtorch/csrc/host_lti_recur.cpp", "philtorch/csrc/host_lti_recurN.cpp", "philtorch/csrc/host_recurN.cpp"]}
{"id": "C39", "title": "CPU kernels stay inside their buffers", "statement": "For every input accepted by the compiled ops, all reads and writes of the kernels are inside the tensors passed in.", "quantifier": "every shape accepted by the ops", "why_tests_cant": "an out-of-bounds read is usually silent", "anchors": ["philtorch/csrc/host_lti_recurN.cpp: lti_mat_recur_N_order_cpu_impl", "philtorch/csrc/host_recurN.cpp: mat_recur_N_order_cpu_omp_impl", "philtorch/lpv/ssm.py: state_space, _ext_ss_recur"]}
{"id": "C40", "title": "Parallel scan correctness", "statement": "The scan operators are associative, so any bracketing chosen by a parallel scan gives the sequential recurrence; and batches concatenated in one flat scan do not influence each other (by key for the GPU, by the zero matrix at step 0 for the CPU scan).", "quantifier": "every bracketing (tree), every sequence length, every batch", "why_tests_cant": "quantifies over all parallel schedules of the scan", "anchors": ["philtorch/csrc/recur2.cuh", "philtorch/csrc/recur2.cu", "philtorch/csrc/lti_recur.cu", "philtorch/csrc/lti_recur2.cu", "philtorch/csrc/host_recur2.cpp", "philtorch/csrc/host_recurN.cpp"]}
{"id": "C41", "title": "Backend transparency", "statement": "The value returned by state_space / state_space_recursion / lfilter does not depend on which backends are installed (compiled extension, Helion) nor on the device; every combination of installed backends works.", "quantifier": "every combination of extension/Helion/ParaRNN availability, device and state dimension", "why_tests_cant": "CI has one build configuration", "anchors": ["philtorch/lti/ssm.py: extension_backend_indicator, helion_backend_indicator, _ext_ss_recur", "philtorch/lpv/ssm.py: extension_backend_indicator, _pararnn_applicable, _ext_ss_recur", "philtorch/__init__.py"]}
{"id": "C42", "title": "Shape inference of the compiled ops", "statement": "Whenever a compiled op accepts its inputs, the registered shape function accepts them and predicts the shape of the result.", "quantifier": "every combination of shapes", "why_tests_cant": "torch.library.opcheck samples shapes", "anchors": ["philtorch/__init__.py: register_fake"]}
{"id": "C43", "title": "Cubic spline coefficients interpolate", "statement": "The coefficients c = cspline(x) satisfy (c[n-1] + 4 c[n] + c[n+1])/6 = x[n] at every sample, with the chosen boundary extension, in the parallel and in the cascaded form.", "quantifier": "every length, every signal, both boundary conventions, both forms", "why_tests_cant": "tests compare with scipy up to a tolerance", "anchors": ["philtorch/lti/interp.py: cspline, _cubic_coeff, _first_order_filt"]}
{"id": "C44", "title": "Cubic spline upsampling", "statement": "cubic_spline(x, m) has length (L-1)m+1, is the cubic B-spline with coefficients cspline(x) evaluated at multiples of 1/m, and passes through x at every m-th sample.", "quantifier": "every L >= 3, every m >= 1, every signal", "why_tests_cant": "tests cover a few m", "anchors": ["philtorch/lti/interp.py: cubic_spline, _cubic_spline_kernel"]}
{"id": "C45", "title": "Newton sequence solver", "statement": "newton_solve returns a sequence of the length of x; after k iterations its first k entries are exactly the sequential iteration y_t = f(y_{t-1}, x_t), and for f affine in the state with exact Jacobian the result is exact after one iteration.", "quantifier": "every function f, every initial guess, every number of iterations", "why_tests_cant": "quantifies over all functions and guesses", "anchors": ["philtorch/prototype/nl.py: newton_solve"]}
{"id": "C46", "title": "Function chaining", "statement": "chain_functions(f1,...,fk)(args) applies the functions in order, spreading tuples as positional arguments.", "quantifier": "every list of functions and every argument tuple", "why_tests_cant": "quantifies over all chains", "anchors": ["philtorch/utils.py: chain_functions"]}
{"id": "C47", "title": "Helion kernels compute the recurrence under every tiling", "statement": "The custom ops hl_lti_recurN and hl_recurN return the states h_t = A h_{t-1} + x_t (resp. A_t), whatever tiles the Helion autotuner chooses for the batch and state loops.", "quantifier": "every state dimension, batch size, length, tiling, shared and batched A", "why_tests_cant": "the autotuner picks one tiling per machine; tests see only that one", "anchors": ["philtorch/_helion.py", "philtorch/__init__.py: hl_lti_recurN, hl_recurN"]}
{"id": "C48", "title": "Polynomial arithmetic of the prototype", "statement": "polyadd, polysub, polymul, polysmul, polyder, polyval and trim_zeros compute the sum, difference, product, derivative, value and the same polynomial without leading zeros.", "quantifier": "every list of coefficients over every commutative ring, every order of derivative, every evaluation point", "why_tests_cant": "tests multiply a few random polynomials", "anchors": ["philtorch/prototype/poly.py: trim_zeros, polysmul, polymul, polyval, polysub, polyder, polyadd"]}
{"id": "C49", "title": "Polynomial division and roots of the prototype", "statement": "polydiv returns quotient and remainder of polynomial division, and roots returns numbers z_i with p = lead(p) * prod (X - z_i).", "quantifier": "every dividend, every non-zero divisor, every polynomial, given a correct eigenvalue solver", "why_tests_cant": "the degenerate inputs (monomials, small remainders) are rarely sampled", "anchors": ["philtorch/prototype/poly.py: polydiv, roots"]}
{"id": "C50", "title": "Distinct roots and factors of a product", "statement": "unique_roots lists every distinct root once with its multiplicity, and _compute_factors returns, for every root, the product of all linear factors without the powers of its own.", "quantifier": "every list of roots, every tolerance test, every list of multiplicities", "why_tests_cant": "tests use a handful of well separated roots", "anchors": ["philtorch/prototype/signal.py: unique_roots, _compute_factors"]}
{"id": "C51", "title": "Partial fractions of b(s)/a(s)", "statement": "residue returns r, p, k with b(s)/a(s) = k(s) + sum r_i/(s-p_i)^m_i wherever a(s) is not zero, p being the roots of a and r a vector of the same length.", "quantifier": "every numerator and denominator, every pattern of multiplicities, given a correct eigenvalue solver", "why_tests_cant": "repeated poles and low-degree remainders are rarely sampled", "anchors": ["philtorch/prototype/signal.py: residue, _compute_residues"]}
{"id": "C52", "title": "Partial fractions of b(z)/a(z)", "statement": "residuez returns r, p, k with b(z)/a(z) = k(1/z) + sum r_i/(1-p_i/z)^m_i wherever a(z) is not zero, p being the roots of a and r a vector of the same length.", "quantifier": "every numerator and denominator, every pattern of multiplicities, given a correct eigenvalue solver", "why_tests_cant": "repeated poles and low-degree remainders are rarely sampled", "anchors": ["philtorch/prototype/signal.py: residuez, _compute_residues"]}
{"id": "C53", "title": "Partial fractions of a cascade of second-order sections", "statement": "sos2pfe returns real and complex residues, poles and powers and a gain g with prod b_s(z)/a_s(z) = g + sum over real poles r/(z-p)^n + sum over complex poles (r/(z-p)^n + conj r/(z-conj p)^n), wherever the denominators do not vanish.", "quantifier": "every list of sections, every mixture of real, complex, simple and repeated poles", "why_tests_cant": "the failing mixtures (real and complex sections together, repeated complex poles, negative gains) are not sampled", "anchors": ["philtorch/prototype/signal.py: sos2pfe"]}
{"id": "C54", "title": "Compiled ops with 32-bit indices", "statement": "The registered CPU and CUDA ops return the states of the recurrence although they compute sizes and offsets with 32-bit signed integers.", "quantifier": "all sizes of batch, signal and state up to 2^32, all thread schedules and scan orders, all contents of uninitialised memory", "why_tests_cant": "tests never allocate buffers of 2^31 elements", "anchors": ["philtorch/csrc/host_lti_recur.cpp", "philtorch/csrc/host_lti_recurN.cpp", "philtorch/csrc/host_recurN.cpp", "philtorch/csrc/lti_recur.cu", "philtorch/csrc/lti_recur2.cu", "philtorch/csrc/recur2.cu"]}
{"id": "C55", "title": "Time invariance", "statement": "Started at rest, the LTI functions return a delayed output when the signal is delayed (zeros in front, the end dropped). The LPV functions do so when the coefficients are delayed together with the signal, whatever the coefficients are during the delay.", "quantifier": "all signals, coefficients, lengths, batch sizes, unroll factors (LTI) and delays, also delays longer than the signal", "why_tests_cant": "tests compare outputs for single signals against scipy and never relate two runs", "anchors": ["philtorch/lti/recur.py", "philtorch/lti/ssm.py", "philtorch/lti/filtering.py", "philtorch/lpv/recur.py", "philtorch/lpv/filtering.py"]}
{"id": "C56", "title": "The transfer function determines the filter", "statement": "Started at rest, lfilter multiplies the signal by b/a: two filters return the same output for all signals iff their transfer functions are equal, whatever the orders, layouts, forms and unroll factors. Filters in series are the filter with the product of the transfer functions, in either order, the inverse filter gives the signal back, and the output is the convolution of the signal with the response to an impulse. linear_recurrence and comb_filter are the filters 1/(1 - a/z) and 1/(1 + a/z^D).", "quantifier": "all coefficients, orders, signals, lengths, batch sizes and unroll factors; complex numbers in form df2, real numbers (trivial conjugation) in every form", "why_tests_cant": "tests compare single filters with scipy; relations between filters of different order hold for infinitely many pairs", "anchors": ["philtorch/lti/filtering.py: lfilter, fir, comb_filter", "philtorch/lti/recur.py: linear_recurrence"]}
{"id": "C57", "title": "State-space models in closed form", "statement": "The recurrences return a^(t+1) init + sum a^(t-k) x_k and A^(t+1) z + sum A^(t-k) x_k (time-varying: products of coefficients and transition matrices); state_space returns the Markov parameters convolved with the input plus the response to the initial state; a change of basis of the state does not change the output; and a model with one input and output, from rest, is lfilter with the characteristic polynomial of A as denominator.", "quantifier": "all matrices, states, inputs, lengths, batch sizes and unroll factors (time-varying matrices: the factors of C07)", "why_tests_cant": "tests compare with a loop at a few sizes; closed forms and similarity relate values at all times", "anchors": ["philtorch/lti/recur.py", "philtorch/lti/ssm.py", "philtorch/lpv/recur.py", "philtorch/lpv/ssm.py", "philtorch/lti/filtering.py: lfilter"]}
{"id": "C58", "title": "Stability", "statement": "Outputs are bounded independently of the length: lfilter with all poles p inside the unit circle multiplies the bound of the signal by at most sum |b_j| prod 1/(1-|p|), and if the responses to impulses of all lengths have a common bound then every pole outside the unit circle is cancelled by the numerator. If the numerator cancels no pole on or outside the unit circle, bounded inputs give bounded outputs exactly when all poles lie inside. state_space_recursion with eigenvalues inside the unit circle is bounded and forgets its initial state exponentially. First-order recurrences with |a| <= r < 1, also time-varying, FIR and comb filters have explicit bounds.", "quantifier": "all real or complex coefficients, signals, lengths, batch sizes, forms and unroll factors, in exact arithmetic (numerator and poles are those of the filter that the form computes, see C12)", "why_tests_cant": "a bound that holds for every length cannot be observed in finitely many runs", "anchors": ["philtorch/lti/filtering.py: lfilter, fir, comb_filter", "philtorch/lti/recur.py", "philtorch/lti/ssm.py: state_space_recursion", "philtorch/lpv/recur.py: linear_recurrence"]}
{"id": "C59", "title": "Rounding errors of the compiled recurrences", "statement": "If every sum and product has a relative error of at most eps, the compiled recurrences return the exact recurrence with an error of at most (1+eps)^(k(t+1)) - 1 times the recurrence of the absolute values at time t, for every schedule of the threads on the CPU and every bracketing of the scan on CUDA: k = 2 for lti_recur, k = M+2 for lti_recurN and recurN on the CPU, k = 3 for lti_recur2 and recur2 on CUDA. For lti_recur on the CPU with |a| <= r, r(1+eps)^2 < 1, the error is bounded independently of the length. Results on CPU and CUDA agree within the sum of the bounds but need not be equal.", "quantifier": "all real or complex arguments, lengths, batch sizes, schedules, bracketings and arithmetics with relative error eps (no overflow or underflow)", "why_tests_cant": "tests compare with a tolerance chosen by hand at a few sizes; the bound holds for every length, schedule and bracketing, and shows how the tolerance must grow", "anchors": ["philtorch/csrc/host_lti_recur.cpp", "philtorch/csrc/host_lti_recurN.cpp", "philtorch/csrc/host_recurN.cpp", "philtorch/csrc/lti_recur.cu", "philtorch/csrc/lti_recur2.cu", "philtorch/csrc/recur2.cu"]}
{"id": "C60", "title": "Stability of time-varying filters", "statement": "If the coefficients of lpv.lfilter are bounded by alpha_k and beta_j at all times and sum alpha_k = r < 1, then in every form and both backends signals of size X give outputs of size at most sum beta_j * X/(1-r), at any length (with an initial state of size Z, form df2: sum beta_j * max(X/(1-r), Z)); likewise lpv.allpole. lpv.state_space_recursion with row sums of |A_t| at most r is bounded and forgets its initial state. Poles inside the unit circle at every instant do not suffice: with denominators 1 +- (3/2)/z + (3/4)/z^2 in alternation the impulse response grows like (3/2)^n.", "quantifier": "all real or complex coefficients, signals, orders, lengths, batch sizes and layouts, in exact arithmetic", "why_tests_cant": "a bound that holds for every length and every modulation of the coefficients cannot be observed in finitely many runs", "anchors": ["philtorch/lpv/filtering.py: lfilter, allpole", "philtorch/lpv/ssm.py: state_space_recursion"]}
{"id": "C61", "title": "Filtering through partial fractions", "statement": "The expansions serve to filter in parallel: with the residues r, poles p and direct terms k that residuez returns for b and a, filtering with lfilter by b/a gives the same output as filtering with the FIR filter k and adding, for every residue, the output of lfilter with numerator r and denominator (1 - p/z)^m, where m counts the occurrences of the pole so far. With the result of sos2pfe, a cascade of second-order sections run through lfilter gives the gain times the signal plus the outputs of the filters r z^-n/(1 - p/z)^n, complex poles together with their conjugates; on real signals the two outputs of a pair are conjugate.", "quantifier": "all coefficients, signals, lengths, batch sizes and unroll factors for which residuez resp. sos2pfe return vectors (see C52, C53); complex numbers in form df2, real numbers in every form", "why_tests_cant": "tests compare the residues with scipy and never run the filters; the equality of the outputs holds at every length", "anchors": ["philtorch/prototype/signal.py: residuez, sos2pfe", "philtorch/lti/filtering.py: lfilter, fir"]}
{"id": "C62", "title": "Given poles and eigenvectors in lfilter(backend=\"diag_ssm\")", "statement": "Called with L = p and V = vandermonde(p) in form df2, or L = p and Vinv = vandermonde(p).T in form tdf2, for the poles p of the denominator (as in the tests), or with any eigen-decomposition of the state matrix, lfilter with backend diag_ssm returns what backend ssm returns.", "quantifier": "all coefficients with distinct poles, layouts, signals, initial states, lengths, batch sizes and unroll factors", "why_tests_cant": "tests try two orders with random poles inside the unit circle, real coefficients, and always pass the poles of the denominator they pass", "anchors": ["philtorch/lti/filtering.py:336-410", "philtorch/lti/ssm.py:592-833", "tests/test_lti_lfilter.py:356-420"]}
{"id": "C63", "title": "filtfilt over the diagonal backend", "statement": "filtfilt with backend diag_ssm, with or without given poles and eigenvectors, returns what filtfilt with backend ssm returns.", "quantifier": "all coefficients with distinct poles, signals, paddings, forms df2 and tdf2, lengths, batch sizes and unroll factors", "why_tests_cant": "tests run filtfilt with the default backend only", "anchors": ["philtorch/lti/filtering.py:413-484", "philtorch/lti/filtering.py:336-410", "philtorch/lti/ssm.py:592-833"]}
{"id": "C64", "title": "Frequency response", "statement": "With H(w) = b(w)/a(w): lfilter answers x_t = c w^t by H(w) c w^t, exactly when started from the stationary state c w^(-1-m)/a(w) (which it leaves multiplied by w^N), and otherwise up to a transient of at most G r^t for every r above the largest pole; a real stable filter answers cos(wt + phi) by |H| cos(wt + phi + arg H) in the limit, in every form; filters with equal responses at infinitely many points give equal outputs. state_space answers c w^t by (C (w - A)^-1 B + D) c w^t, exactly from the stationary state and in the limit from any state if the eigenvalues lie inside the unit circle; comb_filter answers it by c w^t/(1 + a w^-D).", "quantifier": "all real or complex coefficients, orders, points w, initial states, lengths, batch sizes, forms (complex: df2) and unroll factors", "why_tests_cant": "a test measures a response at a few frequencies, after a transient it can only wait out", "anchors": ["philtorch/lti/filtering.py:211-270", "philtorch/lti/filtering.py:273-333", "philtorch/lti/ssm.py: state_space", "philtorch/lti/filtering.py: comb_filter"]}
{"id": "C65", "title": "Energy of all-pass filters", "statement": "lfilter with a numerator that is the conjugated denominator read backwards puts out at most the energy it took in, at any length, when its poles are in the closed unit disc; with the poles inside, the energies of a signal that dies out and of its output have the same limit, and the response has modulus 1 on the unit circle.", "quantifier": "all all-pass filters of any order, real (every form) or complex (df2), signals, lengths, batch sizes and unroll factors", "why_tests_cant": "a claim on all signals and lengths; the test suite has no all-pass filter", "anchors": ["philtorch/lti/filtering.py:211-270", "philtorch/lti/filtering.py:273-333"]}
{"id": "C66", "title": "filtfilt: stability and squared response", "statement": "For a filter with its poles inside the unit circle, filtfilt is bounded by a constant times its input, and the constant depends on the coefficients alone. It answers c w^t, |w| = 1, by H(w) H(1/w) c w^t, and with real coefficients cos(wt + phi) by |H|^2 cos(wt + phi), up to an error of at most C |c| (r^t + r^(N-1-t)) with r < 1: away from the ends the phase is not shifted, whatever the padding. C and r do not depend on the length, the padding or the signal. (H has the conjugated coefficients in form tdf2.)", "quantifier": "all stable real or complex filters of any order, signals, lengths, batch sizes, padding modes and lengths, unroll factors; forms tdf2, and df2 with a numerator of at most P + 1 taps (others raise, C20)", "why_tests_cant": "uniformity in the length and padding, and a rate of decay from both ends, are not observable on single runs", "anchors": ["philtorch/lti/filtering.py:413-484", "philtorch/lti/filtering.py:76-208"]}
{"id": "C67", "title": "Calls with ill-shaped arguments raise", "statement": "A call of a public function returns only if its arguments have the documented shapes: lti.state_space and lpv.state_space (state, input, output and feedthrough matrices, initial state, a non-empty signal, an unroll factor of at least one, not both C and out_idx), fir and allpole of both kinds, comb_filter, lfilter with each backend, diag_state_space and filtfilt. All other calls raise an exception. For linear_recurrence, state_space_recursion, companion, vandermonde, matrix_power_accumulate and matrices_cumdot the converse holds too: every call with such arguments returns.", "quantifier": "all arguments of every rank and size", "why_tests_cant": "the tests only make calls with well-shaped arguments; silently accepted sizes are found by no finite list of wrong calls", "anchors": ["philtorch/lti/ssm.py: state_space, diag_state_space", "philtorch/lpv/ssm.py: state_space", "philtorch/lti/filtering.py", "philtorch/lpv/filtering.py", "philtorch/lti/recur.py:94-192", "philtorch/lpv/recur.py:20-101", "philtorch/mat.py:42-150"]}
{"id": "C68", "title": "Depth of the recursions", "statement": "The recursions are of logarithmic depth: linear_recurrence and state_space_recursion of both kinds return under a recursion limit of k nested calls if and only if they return without one and k >= max(1, ceil(log_u N)); hence 63 nested calls suffice for every signal PyTorch can hold. matrices_cumdot nests one call per prime factor of the number of matrices, polysmul ceil(log2 n) + 1 for n >= 1 polynomials (without arguments it does not end: C48).", "quantifier": "all arguments of every shape, well-shaped or not, unroll factors (also those below two) and lengths", "why_tests_cant": "a test with N samples shows the depth for that N only; a recursion that ends for the lengths tried may not end for others", "anchors": ["philtorch/lti/recur.py", "philtorch/lpv/recur.py", "philtorch/lti/ssm.py: state_space_recursion", "philtorch/lpv/ssm.py: state_space_recursion", "philtorch/mat.py:132-170", "philtorch/prototype/poly.py:90-97"]}
{"id": "C69", "title": "Change of numbers", "statement": "The library does not look at the values it computes with: for a ring homomorphism phi that commutes with conjugation, converting the arguments by phi and calling gives the converted result of the call, and raises exactly when the call raises. This holds for linear_recurrence, state_space_recursion, state_space, fir, allpole and lfilter of both kinds, comb_filter, lfiltic, companion, diag_shift, matrices_cumdot, the backward and jvp rules, and for homomorphisms of fields also for lfilter_zi, filtfilt and polydiv. Hence: filtering real data as complex data gives the real result; conjugating all arguments conjugates the result; if all arguments are, say, integers (any subring closed under conjugation), so are all results.", "quantifier": "all rings and homomorphisms, arguments of every shape (well-shaped or not), forms, backends, unroll factors and lengths, in exact arithmetic", "why_tests_cant": "a test can compare float64 with complex128 on samples only; that no branch or constant depends on the values or the type is a statement about all of them", "anchors": ["philtorch/lti/recur.py", "philtorch/lti/ssm.py", "philtorch/lti/filtering.py", "philtorch/lpv/recur.py", "philtorch/lpv/ssm.py", "philtorch/lpv/filtering.py", "philtorch/mat.py"]}
{"id": "C70", "title": "Shapes alone decide", "statement": "Whether a call returns, and the shapes of what it returns, depends on the shapes of the arguments alone, never on their values nor on the kind of numbers: for linear_recurrence, state_space_recursion, state_space, fir, allpole and lfilter of both kinds, comb_filter, lfiltic, companion, diag_shift, matrices_cumdot and the backward rules. (Hence torch.compile and the fake kernels can follow them without values.) lfilter_zi is not among them: it raises if a filter has a pole at one.", "quantifier": "all arguments of every shape, over any two rings, forms, backends, unroll factors and lengths", "why_tests_cant": "no finite set of values shows that no other values make the call raise", "anchors": ["philtorch/lti/recur.py", "philtorch/lti/ssm.py", "philtorch/lti/filtering.py", "philtorch/lpv/recur.py", "philtorch/lpv/ssm.py", "philtorch/lpv/filtering.py", "philtorch/mat.py"]}
{"id": "C71", "title": "Outputs are polynomials; derivatives of any order", "statement": "For fixed shapes, every entry of every result of linear_recurrence, state_space_recursion, state_space, fir, allpole and lfilter of both kinds, of comb_filter and of the backward rules is one polynomial with integer coefficients in the entries of the arguments and their conjugates, the same for all kinds of numbers (or the call raises for all arguments of these shapes). Run on dual numbers v + eps d, these functions return their value at v and their derivative in direction d; the jvp rules of the recurrences complete the value to the run on dual numbers, over any ring, so that forward mode may be nested and applied to the backward rules. The derivative of lfilter is lfilter with numerator 1 and the same denominator, applied to sum db_j x_(t-j) + sum b_j dx_(t-j) - sum da_k y_(t-k).", "quantifier": "all shapes, rings, real or complex arguments and directions, forms, backends, unroll factors and lengths; the derivative of lfilter for real data in every form", "why_tests_cant": "gradcheck compares with finite differences at a few points, to first order", "anchors": ["philtorch/lti/recur.py", "philtorch/lti/ssm.py", "philtorch/lti/filtering.py", "philtorch/lpv/recur.py", "philtorch/lpv/ssm.py", "philtorch/lpv/filtering.py"]}
{"id": "C72", "title": "Geometric weighting", "statement": "Multiplying sample t of the input by r^t and the coefficient of z^-k by r^k multiplies sample t of the output by r^t: for linear_recurrence (coefficient times r), state_space_recursion and state_space (state and input matrices times r), fir, allpole and lfilter of both kinds, all forms and both backends, and comb_filter (coefficient times r^delay). For lfilter with a state, entry m of the state of form df2 carries the weight r^-(m+1), that of form tdf2 the weight r^m, before and after the call.", "quantifier": "all rings, factors r (also zero and not invertible ones), coefficients, time-varying or not, signals and lengths; for complex r in the forms that do not conjugate their coefficients", "why_tests_cant": "a test tries a few factors and lengths in floating point, where large powers hide an error at either end", "anchors": ["philtorch/lti/recur.py", "philtorch/lti/ssm.py", "philtorch/lti/filtering.py", "philtorch/lpv/recur.py", "philtorch/lpv/ssm.py", "philtorch/lpv/filtering.py"]}
{"id": "C73", "title": "Stretching filters and signals", "statement": "Putting L - 1 zeros after every sample of the signal and moving the coefficient of z^-k to z^-(L k) puts L - 1 zeros after every sample of the output (the substitution z -> z^L, known as the noble identity): for fir and lfilter of the time-invariant kind in every form, comb_filter (delay times L), and the time-varying fir, allpole and lfilter, whose coefficients are held for L samples.", "quantifier": "all L >= 1, rings, coefficients, signals, lengths, orders and unroll factors of either call, from rest", "why_tests_cant": "compares calls of different length, order and depth of recursion; a test compares a few of them", "anchors": ["philtorch/lti/filtering.py: fir, lfilter, comb_filter", "philtorch/lpv/filtering.py: fir, allpole, lfilter"]}
{"id": "C74", "title": "Transposed filters are transposes", "statement": "A form and its transposed form are conjugate transposes of each other as linear maps: for signals x and u of the same length, the output for x paired with u reversed in time equals x paired with the output of the transposed form for u, reversed in time (pairing: sum of conj(u_(N-1-n)) y_n). This holds for fir with transpose False / True, for lfilter with df1 / tdf1 and df2 / tdf2, allpole without / with transpose, and, with the conjugate coefficient, for comb_filter and linear_recurrence; time-varying coefficients are given to the transposed filter in reversed order. State-space systems satisfy the same identity with the conjugate transposes of A, C, B, D, where the initial state of one system is paired with the final state of the other. With constant real coefficients any two forms of lfilter are transposes.", "quantifier": "all rings with conjugation, coefficients, signals, states, batch sizes, lengths, orders, numbers of inputs and outputs, and unroll factors of either call", "why_tests_cant": "relates two different algorithms through all pairs of inputs; a test tries a few pairs", "anchors": ["philtorch/lti/filtering.py: fir, lfilter, comb_filter", "philtorch/lpv/filtering.py: fir, allpole, lfilter", "philtorch/lti/recur.py", "philtorch/lpv/recur.py", "philtorch/lti/ssm.py: state_space", "philtorch/lpv/ssm.py: state_space"]}
{"id": "C75", "title": "Comparison: monotone filters and magnitude bounds", "statement": "Related coefficients and related signals give related outputs and final states, for every relation compatible with sums and products (coefficients related by Q, signals by R). In particular: a filter whose numerator is not negative and whose feedback coefficients are not positive is monotone (a larger signal gives a larger output, in every form); and replacing numerator and signal by their absolute values and the denominator by minus its absolute values bounds the output of the filter in absolute value, also for complex filters. This holds for linear_recurrence, state_space_recursion and state_space of both kinds, fir (direct and transposed), allpole, comb_filter from rest, lti.lfilter in every form from rest and with df2 or tdf2 states, lpv.lfilter with the backend ssm (df1, df2 and tdf2) and torchlpc (df1, df2 and tdf1).", "quantifier": "all pairs of rings and compatible relations, coefficients, signals, states, batch sizes, lengths, orders, and unroll factors of either call (time-varying: those for which the recursion is correct, C07; b and a read per sample: batch size not the length)", "why_tests_cant": "an inequality between all pairs of signals; a test compares a few pairs, in floating point", "anchors": ["philtorch/lti/recur.py", "philtorch/lti/ssm.py", "philtorch/lti/filtering.py", "philtorch/lpv/recur.py", "philtorch/lpv/ssm.py", "philtorch/lpv/filtering.py"]}
{"id": "C76", "title": "States of df2 and tdf2", "statement": "The state of form df2 and the state of form tdf2 of the same filter correspond through the Bezout matrix of numerator and denominator: started from the converted state, tdf2 returns the output of df2, and its final state is the converted final state (complex coefficients conjugated). Different tdf2 states give different outputs for every signal at least as long as the state, so the converted state is the only one. The converse fails: if numerator and denominator have a common factor, some tdf2 states correspond to no df2 state.", "quantifier": "all rings with conjugation, coefficients, orders, states, signals, batch sizes, lengths and unroll factors of either call", "why_tests_cant": "a matrix identity in all coefficients and orders between two algorithms; a test tries a few filters", "anchors": ["philtorch/lti/filtering.py: lfilter", "philtorch/lti/ssm.py: state_space"]}
{"id": "C77", "title": "Change of state coordinates", "statement": "If a matrix T takes the states of one system to those of another (T A = A' T, T B = B', C = C' T; time-varying: T_(t+1) A_t = A'_t T_t, T_(t+1) B_t = B'_t, C_t = C'_t T_t), state_space of both kinds returns the same output for z and T z, and T times the final state. T need not be square or invertible.", "quantifier": "all rings, systems of any two sizes, numbers of inputs and outputs, states, signals, batch sizes, lengths and unroll factors of either call (time-varying: those for which the recursion is correct, C07)", "why_tests_cant": "relates calls with matrices of different sizes for all matrices T; a test tries a few", "anchors": ["philtorch/lti/ssm.py: state_space", "philtorch/lpv/ssm.py: state_space"]}
{"id": "C78", "title": "Systems in series and in parallel", "statement": "Passing the output of state_space to another state_space gives the output of one state_space with the block matrices A = [[A1, 0], [B2 C1, A2]], B = [[B1], [B2 D1]], C = [D2 C1, C2], D = D2 D1; the sum of the outputs of two systems with the same input is the output of the system with the blocks A = [[A1, 0], [0, A2]], B = [[B1], [B2]], C = [C1, C2], D = D1 + D2. The initial and final states are those of the two systems one after the other. Both for constant and for time-varying systems.", "quantifier": "all rings, matrices, sizes, numbers of inputs and outputs, states, signals, batch sizes, lengths and unroll factors of the three calls (time-varying: those for which the recursion is correct, C07)", "why_tests_cant": "compares three calls of different sizes for all matrices; a test tries a few", "anchors": ["philtorch/lti/ssm.py: state_space", "philtorch/lpv/ssm.py: state_space"]}
{"id": "C79", "title": "Layouts of arguments", "statement": "Values given once for all items, once per item, or (time-varying) once per sample give the same result as the same values written out in a larger layout, whatever the unroll factors: linear_recurrence and state_space_recursion of both kinds (coefficients, matrices, initial values, scalar or full input), state_space of both kinds (A, B with its input, C, D, initial state), lti.lfilter in every form, lpv.lfilter with both backends, and comb_filter. The excluded case is real: when the batch size equals the length, time-varying state_space reads one vector B per item as one vector per sample.", "quantifier": "all rings, values, batch sizes, lengths, orders, pairs of layouts of the same values, and unroll factors of either call (time-varying: those for which the recursion is correct, C07; one value per item only if the batch size is not the length)", "why_tests_cant": "a test compares a few layouts at one size; which layout the code reads depends on coincidences of sizes", "anchors": ["philtorch/lti/recur.py", "philtorch/lti/ssm.py", "philtorch/lti/filtering.py", "philtorch/lpv/recur.py", "philtorch/lpv/ssm.py", "philtorch/lpv/filtering.py"]}
{"id": "C80", "title": "README examples", "statement": "The two examples of the README compute what they say. state_space with A = [[1, 1], [1, 0]], zero input, C = [1, 0] and initial state (p, q) returns p fib(t+1) + q fib(t) for every t. lfilter(b, a, x, zi = lfilter_zi(a, b) * c) (default form) equals c times the DC gain plus the response from rest to x - c, so that with c = x[0] there is no transient for the first value.", "quantifier": "all rings and initial states, lengths and unroll factors (Fibonacci); all real filters without a pole at 1, signals, constants c, batch sizes, lengths and unroll factors (steady start)", "why_tests_cant": "the README prints ten numbers and one plot; the claims are about every length and filter", "anchors": ["README.md:100-160", "philtorch/lti/ssm.py: state_space", "philtorch/lti/filtering.py: lfilter, lfilter_zi"]}
{"id": "C81", "title": "The lowpass filter of the example notebook", "statement": "For a cutoff frequency f strictly between 0 and half the sample rate and Q > 0, lowpass_biquad_coef of the notebook gives a filter with both poles inside the unit circle, gain 1 at frequency 0, 0 at half the sample rate and -iQ at f: through lfilter a cosine of frequency f becomes Q times as large and a quarter period late, up to a transient that vanishes. The notebook's lfilter_zi / lfilter call returns the first sample plus the response from rest to x - x[0]; constants pass unchanged. If the signal has a sample that differs from its first one and two more samples follow, the notebook's loss is 0 only for the true f and Q. At f = 0 the call raises; at half the sample rate a pole lies on the unit circle.", "quantifier": "all sample rates, cutoff frequencies and Q in the stated range (real numbers), signals, batch sizes, lengths, unroll factors; every form for the cosine", "why_tests_cant": "statements about all real parameters and limits; that no wrong parameters reach loss 0 cannot be sampled", "anchors": ["examples/estimate_lowpass.ipynb:48-64", "examples/estimate_lowpass.ipynb:100-105", "examples/estimate_lowpass.ipynb:231-234", "philtorch/lti/filtering.py: lfilter, lfilter_zi"]}
{"id": "C82", "title": "Periodic signals", "statement": "If the signal has period L and filtering one period returns the initial state, the output of lfilter has period L (transposed form II). For a stable filter exactly one state returns after a period, and there is one periodic output that the output approaches like r^t, r any number above the largest pole: from every initial state in transposed form II, and from rest in every form. A pole on the unit circle can leave no such state: the running sum of a constant has none. For state_space the same periodicity holds, and exactly one state returns after L samples just when I - A^L (time-varying: I minus the product of the matrices of one period) has nonzero determinant, over the complex numbers just when no eigenvalue l of A has l^L = 1; time-varying with an unroll factor for which the blocked recursion is correct (C07). With all eigenvalues inside the unit circle there is one periodic output that the outputs of lti.state_space approach exponentially from every initial state.", "quantifier": "all rings (periodic output); all stable real filters, signals of every period, states, batch sizes, lengths and unroll factors (steady state, settling); all fields (state_space)", "why_tests_cant": "existence and uniqueness of a state, and a limit in time, for all filters and periods; a test runs a few periods", "anchors": ["philtorch/lti/filtering.py: lfilter", "philtorch/lti/ssm.py: state_space", "philtorch/lpv/ssm.py: state_space"]}
{"id": "C83", "title": "States seen and reached", "statement": "Let M be the length of the state. lfilter in transposed form II shows its state: for any signal of M samples and any wanted output exactly one initial state gives this output. Form II reaches every state: exactly one signal of M samples leads from a given initial state to a given final state. Both hold for lti.lfilter and, with the backend ssm, an unroll factor for which the blocked recursion is correct (C07) and, when the coefficients have a batch axis, a batch size other than M (C30), for lpv.lfilter. The other way round fails: (1 + 1/z)/(1 + 1/z) in form II returns its input whatever the state, and in transposed form II it never leaves the rest state. For lti.state_space with M states: two initial states that give the same output for M samples of one signal give the same output for every signal of every length; and a state reached from rest by a signal of any length is reached by one of M samples.", "quantifier": "all rings, filters, systems, signals, states, batch sizes, lengths and unroll factors", "why_tests_cant": "uniqueness over all states and signals, and a conclusion for all longer signals, cannot be sampled", "anchors": ["philtorch/lti/filtering.py: lfilter", "philtorch/lpv/filtering.py: lfilter", "philtorch/lti/ssm.py: state_space"]}
{"id": "C84", "title": "A finite test decides", "statement": "Take two filters b/a and b'/a' of lti.lfilter, started at rest, with K and K' numerator and P and P' denominator coefficients, in any two forms and unroll factors. They return the same output for every signal of every length just when they return the same output for one impulse of max(K+P', K'+P) samples; a test one sample shorter does not decide this. If the coefficients lie in a domain, K = K', P = P', and b/a is in lowest terms and its last numerator or denominator coefficient is not zero, the outputs for this impulse agree just when all coefficients agree. Likewise two models of lti.state_space with M and M' states that return the same output from rest for an impulse of M+M'+1 samples at each input return the same output from rest for every signal.", "quantifier": "all rings, filters, systems, signals, batch sizes, lengths, forms and unroll factors", "why_tests_cant": "this is what makes a finite test conclusive; the conclusion itself is about all signals", "anchors": ["philtorch/lti/filtering.py: lfilter", "philtorch/lti/ssm.py: state_space"]}
{"id": "C85", "title": "Inverse systems and feedback", "statement": "Let D have a left inverse E. The state_space with matrices (A - B E C, B E, -E C, E), started in the same state, turns the output of the state_space with (A, B, C, D) back into the signal and ends in the same state. The loop in which (A, B, C) is driven by the signal plus G times its own output has exactly one solution, the output of (A + B G C, B, C) for the signal, with the same final state. Both hold for lti.state_space with every unroll factor and, with matrices that change in time, for lpv.state_space with the factors for which the blocked recursion is correct (C07). For lti.lfilter with first tap one, the filter with numerator and denominator exchanged gives the signal back: in form df2 started in the same state and ending in the same state, in form tdf2 with both states negated. The same holds for lpv.lfilter with backend ssm and coefficients that change in time, for a batch size different from the length and the factors of C07.", "quantifier": "all rings, systems, signals, states, batch sizes, lengths and unroll factors", "why_tests_cant": "the identity is between two different programs of arbitrary sizes, and uniqueness ranges over all signals", "anchors": ["philtorch/lti/ssm.py: state_space", "philtorch/lpv/ssm.py: state_space", "philtorch/lti/filtering.py: lfilter", "philtorch/lpv/filtering.py: lfilter"]}
{"id": "C86", "title": "Stored and supplied energy", "statement": "Let V measure what a state of a state-space model stores and S what a pair of input and output supplies, in any ordered group. If no single step stores more than is supplied, no run of state_space does: V of the final state is at most V of the initial state plus the sum of S over the run. In particular, for real matrices whose block matrix [[A, B], [C, D]] does not increase the sum of squares, the squares of output and final state sum to at most those of signal and initial state (and only for such lti matrices is this so for all states and signals), and to exactly those if the block matrix has orthonormal columns. This holds for lti.state_space with every unroll factor and, with V, S and the matrices changing in time, for lpv.state_space with the factors of C07.", "quantifier": "all systems, signals, states, storage functions, batch sizes, lengths and unroll factors", "why_tests_cant": "an inequality over all signals of all lengths; a test can only sample signals", "anchors": ["philtorch/lti/ssm.py: state_space", "philtorch/lpv/ssm.py: state_space"]}
{"id": "C87", "title": "Symmetries of FIR filters", "statement": "fir in direct form, started at rest, with the signal followed by zeros, is symmetric in taps and signal: exchanging the two gives the same output, for every length. With M+1 taps and N samples followed by M zeros, reading taps and signal backwards gives the output read backwards. Hence symmetric or antisymmetric taps turn symmetric or antisymmetric signals into symmetric or antisymmetric outputs (linear phase).", "quantifier": "all rings, taps, signals, batch sizes and lengths", "why_tests_cant": "an identity between different calls for all sizes; the signal becomes the taps, so lengths cannot be enumerated", "anchors": ["philtorch/lti/filtering.py: fir"]}
{"id": "C88", "title": "Random signals", "statement": "Let the signal be random and let E be any linear mean. The mean of the outputs of lfilter, started at rest, is its output for the mean signal. If different samples are uncorrelated and each has power s, samples n <= m of the output have the correlation s times the sum over k <= n of h_{n-k} h_{m-k}, where h is the output for an impulse; so the power of the output is s times the energy of the impulse response so far. For state_space driven by such noise with correlations Q, uncorrelated with the initial state, the correlations of the state follow S' = A S A^T + B Q B^T and those of the output are C S C^T + D Q D^T, for lti.state_space with every unroll factor and, with matrices and Q that change in time, for lpv.state_space with the factors of C07.", "quantifier": "all rings, means, filters, systems, random signals and states, batch sizes, lengths, forms and unroll factors", "why_tests_cant": "a mean over all outcomes can only be estimated from samples, and only for one size at a time", "anchors": ["philtorch/lti/filtering.py: lfilter", "philtorch/lti/ssm.py: state_space", "philtorch/lpv/ssm.py: state_space"]}
{"id": "C89", "title": "Blocks of samples as one sample", "statement": "Let the signal of lti.state_space have n L samples. The system with state matrix A^L, input matrix (A^(L-1) B, ..., A B, B), output matrix with the rows C, C A, ..., C A^(L-1) and the lower triangular block matrix with D on the diagonal and C A^(j-1-i) B below it, run on the n blocks of L samples, returns the same output samples, in blocks of L, and the same final state, for any two unroll factors. With matrices that change in time the same holds for lpv.state_space, products of consecutive matrices in place of powers, for the factors of C07.", "quantifier": "all rings, systems, signals, states, block lengths, batch sizes, numbers of blocks and unroll factors", "why_tests_cant": "an identity between runs of two systems of different, unbounded sizes", "anchors": ["philtorch/lti/ssm.py: state_space", "philtorch/lpv/ssm.py: state_space"]}
{"id": "C90", "title": "Running backwards", "statement": "Let the matrices of state_space_recursion (the factors of linear_recurrence) have left inverses. The recursion with the inverse matrices in reverse order, started in the last state and driven by minus the inverse matrix times the signal read backwards, returns the states in reverse order with the initial state at the end. This holds for lti.state_space_recursion, lti.linear_recurrence and lpv.linear_recurrence with any two unroll factors and for lpv.state_space_recursion with the factors of C07.", "quantifier": "all rings, matrices, signals, states, batch sizes, lengths and unroll factors", "why_tests_cant": "an identity in exact arithmetic between two runs of arbitrary length; rounding hides it from a test", "anchors": ["philtorch/lti/ssm.py: state_space_recursion", "philtorch/lpv/ssm.py: state_space_recursion", "philtorch/lti/recur.py: linear_recurrence", "philtorch/lpv/recur.py: linear_recurrence"]}
{"id": "C91", "title": "Observers", "statement": "Run lti.state_space with matrices (A, B, C, D), and a second lti.state_space with state matrix A - L C and input matrix (B - L D, L) on the signal beside the output of the first. Whatever the signal of N samples, the difference of the final states is (A - L C)^N times the difference of the initial states. If a power of A - L C with exponent at most N is zero, both end in the same state. With matrices that change in time the difference is the product of the matrices A_t - L_t C_t times the initial difference, for lpv.state_space with the factors of C07.", "quantifier": "all rings, systems, correction matrices L, signals, initial states, batch sizes, lengths and unroll factors", "why_tests_cant": "the difference must not depend on the signal, for all signals; a test samples some", "anchors": ["philtorch/lti/ssm.py: state_space", "philtorch/lpv/ssm.py: state_space"]}
{"id": "C92", "title": "Finite memory", "statement": "The output of lti.state_space from sample d on is the same for all initial states, whatever the signal of N samples, exactly when C A^t = 0 for all t from d to N-1; for lpv.state_space with the factors of C07, exactly when C_t A_{t-1} ... A_0 = 0 for these t. If A^d = 0, state_space with one input and one output, started at rest, returns the output of fir with the d+1 taps D, C B, C A B, ..., C A^(d-1) B.", "quantifier": "all rings, systems, signals, states, batch sizes, lengths and unroll factors", "why_tests_cant": "independence of all initial states for all signals cannot be sampled", "anchors": ["philtorch/lti/ssm.py: state_space", "philtorch/lpv/ssm.py: state_space", "philtorch/lti/filtering.py: fir"]}
