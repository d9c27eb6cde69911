# Design of the formal model of philtorch

## What is modelled

The Python sources of `philtorch` are modelled function by function in Lean 4 (`lean/Verif/Model`), on top
of a small executable semantics of the PyTorch tensor operations that the code uses (`lean/Verif/Torch`).

* **Scalars.** Exact arithmetic over an arbitrary commutative ring `α` with an involution (`star` = `conj`),
  a field where the code divides. Rounding, overflow, dtype promotion and device placement are *not* modelled
  (exceptions: the compiled kernels are also run on rounded numbers, C59, and with 32-bit offsets, C54; the length of an `arange` in C44).
  "Real dtype" is the hypothesis `TrivialStar α`.
* **Tensors.** `Tensor α` = a shape (list of sizes) + an element function on index vectors. The operations
  (`flip`, `pad`, `unfold`, `flatten`, `unflatten`, `cat`, `stack`, `matmul` with batch broadcasting, `vecdot`,
  `cumprod`, python slices with negative bounds, ...) check shapes as PyTorch does and return
  `Except String`, so a rejected call is visible as `.error`.
* **Control.** Exceptions/asserts are `.error`; Python recursion on shrinking tensors takes a fuel argument that
  the top level call instantiates with the length of the signal - the theorems show the result is `.ok`, so
  the fuel never runs out (termination).
* **Compiled kernels.** The C++/CUDA kernels are modelled on flat memory with explicit offsets and bounds checks; OpenMP
  loops as arbitrary interleavings of the individual memory accesses of the iterations (`Model/Omp.lean`); the parallel
  scans as arbitrary bracketings (binary trees, `Model/Scan.lean`); Helion kernels under arbitrary tilings
  (`Model/Helion.lean`).
* **Environment.** Which backends are importable and the device are a record `Env`; dispatch decisions are
  modelled as the code takes them.

## Which code is modelled

| source | model | covered |
|---|---|---|
| `philtorch/__init__.py` | `Model/Backward.lean`, `Fake.lean`, `Helion.lean`, `Dispatch.lean` | backward rules, shape functions, Helion custom ops, availability flags |
| `philtorch/_helion.py` | `Model/Helion.lean` | the four loops |
| `philtorch/mat.py` | `Model/Mat.lean`, `Eigenvectors.lean` | all functions |
| `philtorch/poly.py`, `utils.py` | `Model/Poly.lean`, `Utils.lean` | all functions |
| `philtorch/lti/recur.py`, `lpv/recur.py` | `Model/LtiRecur.lean`, `LpvRecur.lean`, `Backward.lean` | all functions |
| `philtorch/lti/ssm.py` | `Model/LtiStateSpace.lean`, `LtiSsm.lean`, `LtiDiag.lean`, `Backward.lean`, `Dispatch.lean` | all functions |
| `philtorch/lpv/ssm.py` | `Model/LpvStateSpace.lean`, `LpvSsm.lean`, `Backward.lean`, `Dispatch.lean` | all functions |
| `philtorch/lti/filtering.py` | `Model/LtiFiltering.lean`, `LtiInit.lean`, `LtiComb.lean`, `LtiFiltfilt.lean`, `LtiDiagFilter.lean`, `Dispatch.lean` | all functions (`lfilter` with backends `ssm` and `diag_ssm`) |
| `philtorch/lpv/filtering.py`, `lpv/utils.py` | `Model/LpvFiltering.lean`, `Dispatch.lean` | all functions |
| `philtorch/lti/interp.py` | `Model/LtiInterp.lean` | all functions |
| `philtorch/prototype/nl.py` | `Model/Newton.lean` | `newton_solve` |
| `philtorch/csrc/host_lti_recur.cpp`, `host_lti_recurN.cpp`, `host_recurN.cpp` (OpenMP) | `Model/HostKernels.lean` | kernels and entry functions |
| `philtorch/csrc/lti_recur.cu`, `lti_recur2.cu`, `recur2.cu`, `recur2.cuh`, `host_recur2.cpp`, `host_recurN.cpp` (scans) | `Model/Scan.lean` | operators, input iterators, entry functions |
| the same CPU and CUDA ops with 32-bit `int` indices | `Model/Int32.lean` | registered ops; signed overflow is an error, conversions are modulo 2^32; the unregistered host scans keep unbounded indices |
| `philtorch/prototype/poly.py` | `Model/ProtoPoly.lean` | all; lists of coefficients, `|r| < 1e-8` is a predicate, `eigvals` a parameter |
| `philtorch/prototype/signal.py` lines 1-169 | `Model/ProtoSignal.lean` | all; the tolerance test, `argsort` and `|r| < 1e-8` are parameters; exact arithmetic |
| `philtorch/prototype/signal.py` lines 172-373 (`sos2pfe`) | `Model/ProtoSos.lean` | all; real and complex numbers are elements of one field with parameters for square root, real part and sign; NaN (logarithm of a negative gain) is failure; `0 ** 0` is 1; division by zero not modelled |
| `examples/estimate_lowpass.ipynb` | `Model/Example.lean` | `lowpass_biquad_coef` and the filter call, over the real numbers; the optimiser, plots and random signals are not modelled |
| `philtorch/core.py`, `_version.py`, `setup.py` | - | not modelled (re-exports, build) |

Not modelled anywhere: floating point rounding (one exception: the length of `torch.arange` in `cubic_spline` is computed in a
binary64 model), dtype promotion and dtype errors, strides, autograd tape
internals (the hand-written rules are modelled; built-in operations are not differentiated), the memory model below sequential
consistency, CUDA streams, error messages (only the fact that a call raises).

## What is assumed about external functions

| function | assumption | where |
|---|---|---|
| tensor operations of PyTorch | the definitions in `Torch/Core.lean`, `Conv*.lean`: shape, values, raised errors | all |
| `torch.linalg.solve`, `inv` | return the solution / inverse of an invertible matrix, raise otherwise (`Torch/Solve*.lean`, `Linalg.lean`) | C03, C16, C20, C22, C23, C25 |
| `torch.linalg.eigvals` | parameter; the theorems that use it assume that it returns the eigenvalues, in any order | C22, C23, C62, C63 |
| `sympy.factorint` | C03: parameter, any list of positive factors with the right product; C04: trial division, proved equal to Mathlib's `Nat.primeFactorsList` | C03, C04 |
| `torchlpc.sample_wise_lpc` | parameter with contract `IsLpc` (`Spec/Lpc.lean`): the all-pole difference equation | C28-C34, C41 |
| compiled ops in the dispatch | contracts `IsScalarOp`, `IsMatrixOp`, `IsVaryingOp` (`Spec/Ops.lean`), proved for the modelled kernels in C38, C40, C47 | C41, C43-C45 |
| ParaRNN block reductions | contract `IsBlockReduce` (`Spec/Backends.lean`): solve the block bidiagonal system | C41 |
| OpenMP runtime | `IsScheduler`: every iteration is executed once, in program order per iteration, arbitrarily interleaved, sequentially consistent memory | C38, C39, C42 |
| `thrust::inclusive_scan_by_key`, `std::inclusive_scan` | `IsScan`: the result at `i` is some bracketing of the run of equal keys ending at `i` | C40-C42 |
| Helion's `hl.tile` | `IsTiler`: every index belongs to exactly one tile; batch tiles run one after the other | C41, C47 |
| `func`, `fprime`, `torch.allclose` in `newton_solve` | arbitrary functions; per-property hypotheses `IsPointwise`, `IsPointwiseMat` | C45 |

## Layout

| directory | contents |
|---|---|
| `Verif/Torch` | tensor type, operations, symbolic evaluation lemmas (`Eval*.lean` are generated by `tools/gen_eval.py`) |
| `Verif/Spec` | small independent specifications: recurrences, difference equations, delay lines, layouts of arguments, contracts |
| `Verif/Model` | models of the philtorch functions (each cites file and lines) |
| `Verif/Proof` | helper lemmas |
| `Verif/Props` | one file per property: the theorems named in MANIFEST.json, each followed by an `example` that meets its hypotheses (concrete matrices and poles for these are in `Proof/Witness.lean`) |

Tensors are canonical: `get` is zero outside of the shape, so equal tensors are equal in Lean, and a theorem
`f args = .ok (t3 B N M fun b t i => ...)` fixes shape and every element.  Argument layouts (`LtiInput`, `MatVals`, `Sig`, ...) say
which elements a tensor with or without batch axis holds; one theorem quantified over the layout covers all shapes.

## Proof methods

| id | proof |
|---|---|
| C01, C02 | induction on fuel; block decomposition of the recurrence |
| C03, C04 | induction on the factor list |
| C05-C07 | induction on fuel, shape variants; cumulative products |
| C08, C09 | case analysis of the shape dispatch |
| C10, C18 | semigroup law of the recurrences |
| C11-C14 | companion realisation = difference equation, induction on time |
| C15, C16, C20 | invariant of the delay line, fixed point of the state recursion |
| C17, C26-C30 | index calculus on shifted and folded tensors |
| C19 | reduction to C01 on folded rows |
| C21 | loop invariant, polynomials of Mathlib |
| C22, C23, C25 | change of basis, Vandermonde determinant, least squares |
| C31-C34 | corollaries of the characterisations above |
| C35-C37 | adjoint identity by summation by parts; dual numbers for forward mode |
| C38, C39 | commutation of disjoint updates, any interleaving equals the sequential run; bounds |
| C40 | associativity, induction on the bracketing |
| C41, C42 | case analysis of the dispatch, contracts |
| C43, C44 | algebra of r^2 + 4r + 1 = 0; pieces of the cubic B-spline |
| C45 | induction on iterations |
| C46, C47 | induction on lists; permutation of tiles |
| C48, C49 | coefficient lists to `Polynomial`; loop invariant of long division; determinant of the companion matrix by induction |
| C50-C52 | loop invariants for grouping and factors; synthetic division gives the Taylor coefficients at a pole; local expansions determine the rational function (coprime factors) |
| C53 | the quotient-rule loop gives the Taylor coefficients of N/D at a repeated pole (Hasse derivatives); local expansions as in C51; conjugation acts on residues through the derivative of the denominator |
| C54 | every offset is bounded by the last one; the bounded program is equal to the unbounded one below the limit, and its first overflowing product is located beyond |
| C55 | recursions from rest stay at zero while the input is zero; solutions of the difference equation are unique, so the moved solution is the solution for the moved input |
| C56 | sequences are power series; `a y = b x` determines `y` because `a` has constant term 1, and products of filters are products of series |
| C57 | induction for the closed forms; Cayley–Hamilton gives the denominator of the Markov parameters |
| C58 | over ℂ the denominator is the product of `1 - p/z`, each factor costs `1/(1-\|p\|)`; Gelfand's formula bounds the powers of a matrix; conversely the response is summed at the pole |
| C59 | the kernels of C38 and C40 are defined for any `0`, `+`, `*` and run on rounded numbers; the number of roundings and the sum of absolute values are carried along the loop, or along the tree of the scan |
| C60 | strong induction on time with a bound that the step preserves; the delay line of tdf2 is bounded cell by cell; for the counterexample the signs of consecutive outputs are tracked |
| C61 | an identity between values of rational functions at all but finitely many points is one between polynomials, hence between power series; the filters are divisions of power series (C56) |
| C62 | the decomposition determines the state matrix, so the call is the one of the `ssm` backend with that matrix (C22, C23); a companion matrix is diagonalisable iff its roots are distinct |
| C63 | `filtfilt` is modelled with the filter as a parameter; two filters that agree on signals and states of the right shape give the same result |
| C64 | the stationary signal `w^n/a(w)` solves the recursion; what is left of the internal signal solves it without input, is a polynomial divided by the denominator, and is bounded after rescaling by `r` (C58); state-space models split into `w^t s` and the free motion of the difference |
| C65 | the filter is a product of first-order sections, in each of which `\|u\|² - \|y\|²` telescopes to `(1-\|p\|²)\|v\|²` |
| C66 | each pass is a state-space model whose output is a fading memory of its input (Gelfand's formula); the first pass is compared with the stationary response, the second one, backwards, with the stationary response to that |
| C67 | inversion: a call that returned passed every check and every tensor operation of its branch, and these determine the shapes (`Proof/Accept*.lean`); for the recurrences and matrix functions the value theorems give the converse |
| C68 | well-founded induction on the length: every call makes at most one recursive call, on a signal of ⌈N/u⌉ samples (`Proof/Depth*.lean`); `matrices_cumdot` lowers the rank by one per call, `polysmul` halves its list |
| C69 | every tensor operation commutes with mapping its entries (`Proof/Cast.lean`); the functions are compositions of them (`Proof/Cast*.lean`). Subrings: apply this to the inclusion |
| C70 | C69 for the homomorphism to the ring with one element: there all tensors of a shape are equal (`Proof/ShapeOnly.lean`) |
| C71 | C69 for the evaluation of integer polynomials (in the entries and their conjugates), for `K[X] → K` (points of a line) and `K[X] → K[ε]` (dual numbers) (`Proof/Program.lean`); derivative of `lfilter`: induction along the difference equation |
| C72 | induction along the recurrence, the difference equation or the state update of the value theorems: each of them is homogeneous under the weights (`Proof/Modulate.lean`) |
| C73 | sums over stretched taps lose their zero terms; induction along the difference equation of the value theorems (`Proof/Stretch.lean`) |
| C74 | exchange of the sums over time and lag; feedback by pairing both difference equations with the other output; constant coefficients by commutation of power series; states by a telescoping sum (`Proof/Adjoint.lean`) |
| C75 | one relational lemma per recursion shape: sums, taps, first-order and vector recursions, difference equations with a past, transposed states (`Proof/Compare.lean`); the relations are `≤`, `0 ≤ u ≤ v`, `|u| ≤ v` and `‖u‖ ≤ v` |
| C76 | the delay line as a double sum over `j ≤ m < k`; its step by antisymmetry of `b_k a_j - a_k b_j` (`Proof/Bezout.lean`); uniqueness by reading the delay line off the output |
| C77 | states correspond by induction over time, one exchange of sums per step (`Spec/Intertwine.lean`) |
| C78 | block sums split at the size of the first system; states of the connected system are the states of both (`Spec/Connect.lean`) |
| C79 | both calls equal the same closed form; states and outputs determined by their recursions |
| C80 | induction on Fibonacci numbers over the recursion of `state_space`; `lfilter_zi` is the fixed point of the state, then linearity |
| C81 | Jury conditions for two poles, exact transfer function at 1, -1 and the cutoff, C64 for the cosine, the first three samples of the response determine the coefficients and these f and Q |
| C82 | a state that returns without input gives a periodic output that also vanishes, hence is 0, and then the state is 0; so identity minus the linear map of one period is injective, hence bijective; two runs differ by a decaying response; `state_space`: the state after one period is `Φz + c`, which has one fixed point just when `I - Φ` is invertible |
| C83 | the delay line written out before its end is seen; strong induction on the samples; every power of a matrix is a combination of the first `M` ones (Cayley and Hamilton) |
| C84 | cross products of numerators and denominators vanish past the length of the test; both matrices annihilated by the product of the two characteristic polynomials |
| C85 | the states of both systems agree, by induction on time; the loop equation substituted in the state equation |
| C86 | the inequality of one step summed over the run; the squares of a block matrix times a vector |
| C87 | convolution of sequences commutes; the sum over the taps reflected |
| C88 | the mean is linear, the output a convolution with the impulse response; the state is uncorrelated with later samples, by induction on time |
| C89 | the states of the system on blocks are every L-th state, by induction on blocks and the closed form of C57 within a block |
| C90 | induction on the steps of the backward run |
| C91 | the difference of the states satisfies the recursion without input, by induction on time |
| C92 | closed form of C57; unit vectors as initial states |

## Where the code violates a property

A theorem proves the violation on a concrete input; the rest of the property is proved as `_partial`.

| property | defect | theorem |
|---|---|---|
| C04, C07, C09, C30, C31 | `_mat_cumdot_runner` multiplies in the wrong order for every composite length and loses factors for every length with three or more prime factors, hence wrong time-varying recursions exactly for the unroll factors `2 < u < N` with `u - 1` composite (5, 7, 9, …), also for the default factor of 21 to 30 samples; with constant or scalar coefficients exactly if `u - 1` has three or more prime factors | `C04_exact`, `C04_exact_commuting`, `C07_exact`, `C07_exact_commuting`, `C07_wrong_at_five`, `C09_exact`, `C30_exact_df2`, `C31_exact` |
| C02 | no length check for 2-D coefficients | `C02_unchecked_length` |
| C08, C09, C30, C31 | shapes are told apart by size, wrong result when sizes coincide | `C08_ambiguous_input`, `C09_wrong_feedthrough`, `C30_square`, `C30_square_df2`, `C31_square` |
| C12, C16, C27, C28, C30, C31, C72 | `vecdot` and `.conj()` conjugate complex coefficients in some forms only | `C12_forms_disagree`, `C16_tdf2_complex`, `C27_transposed_complex`, `C72_complex` |
| C67 | `lfilter` in form df2 takes a numerator with any number of rows for a single signal and returns a three-dimensional result; the time-varying one takes `(time, time, K)` | `C67_df2_accepts_any_rows`, `C67_lpv_df2_accepts_time_rows` |
| C67 | `comb_filter` checks only the number of elements of a state with two or more axes: a state of shape `(delay, batch)` or `(1, 1)` is accepted and misread | `C67_comb_filter_accepts_any_layout` |
| C67 | `diag_state_space` with `out_idx` and one basis per item broadcasts the initial state: one entry for any number of states, or any number of entries for one state, is accepted | `C67_diag_accepts_one_state`, `C67_diag_accepts_long_state` |
| C67 | `lpv.linear_recurrence` checks neither the length nor the number of coefficient sequences given per signal: three sequences for one signal give three outputs with unroll factor 1 and raise with 2; `lti.linear_recurrence` with an empty coefficient returns an empty batch for one signal | `C67_lpv_linear_recurrence_accepts_rows`, `C67_linear_recurrence_accepts_empty` |
| C15 | `lfiltic` raises for one tap or no poles | `C15_one_tap`, `C15_no_poles` |
| C16, C20 | `lfilter_zi` for df2 ignores that `lfilter` pads the orders | `C16_df2_long_numerator`, `C20_df2_long_numerator` |
| C17, C27, C28 | one tap and short signals in the transposed forms | `C17_one_tap_transposed`, `C17_short_transposed` |
| C19 | inverted test of the extension flag, delay 0, short signals | `C19_no_extension`, `C19_delay_zero`, `C19_short_signal` |
| C20 | direct form I raises; a 3-D signal is merged to 2-D with padding and raises without | `C20_df1_raises`, `C20_three_axes_merged`, `C20_three_axes_raises` |
| C21 | short dividends and 1-D dividends with batched divisors raise | `C21_short_dividend`, `C21_flat_dividend` |
| C22, C23 | real part taken of a complex output; a repeated eigenvalue raises even if the matrix is diagonalisable; repeated poles raise; a zero pole raises in form df2; state ignored for long numerators; the direct part of a long numerator uses conjugated taps in form df2 | `C22_real_readout`, `C22_repeated_eigenvalue`, `C23_repeated_pole`, `C23_zero_pole`, `C23_complex_taps` |
| C24 | `vandermonde` of a batch of pole lists raises for `M ≥ 2` (`torch.vander` is 1-D only), against its docstring | `C24_vandermonde_rejects_batches` |
| C25 | raises although an eigenbasis exists when an eigenvector starts with 0 | `C25_zero_first_component` |
| C26 | `diag_shift` of one column with `discard_end` returns nothing | `C26_one_column` |
| C30, C73, C74 | `tdf1` differs between the backends; with `ssm` it uses coefficients of the wrong sample and is not the transpose of `df1` | `C30_tdf1_differ`, `C73_lpv_tdf1`, `C74_lpv_tdf1` |
| C35-C37 | empty signals; gradient of a coefficient of shape (1,) has the batch shape | `C35_empty_fails` |
| C39, C41, C42 | ops do not check the batch and time sizes of `A`: out-of-bounds reads | `C39_recurN_out_of_bounds_shared`, `C42_longer_sequence` |
| C41 | CPU-only extension with CUDA tensors, Helion alone, ParaRNN alone raise | `C41_cpu_only_extension_fails` |
| C43 | the first sample is not interpolated | `C43_first_sample_not` |
| C44 | `torch.arange(-2, 2, 1/m)` has 4m+1 elements for m = 49·2^k, 103·2^k, 107·2^k | `C44_factor_49`, `C44_failing_factors` |
| C45 | `max_iter=0` raises, intermediate results have a wrong length | `C45_no_iteration`, `C45_intermediate` |
| C48 | `polyval` of a constant returns one coefficient whatever the shape of x; `polysmul()` never returns | `C48_polyval_constant`, `C48_polysmul_empty` |
| C49 | `polydiv` drops small but non-zero leading coefficients of the remainder; `roots` raises on monomials and constants | `C49_polydiv_drops`, `C49_roots_monomial` |
| C50 | `unique_roots` with its default `rtype="min"` (and `"max"`) raises for every input | `C50_rtype_raises` |
| C51, C52 | `residue`/`residuez` return a column or square matrix, or raise, when there is a simple pole and the remainder is constant or there is only one pole | `C51_shape`, `C52_shape` |
| C53 | `sos2pfe` misassigns the real/complex flags (`repeat(2)` against interleaved roots) as soon as sections differ in kind; raises on every repeated complex pole; gives NaN on a negative gain; drops half of the terms wrongly if pairs of equal modulus are interleaved by the unstable sort; returns a matrix if all poles coincide | `C53_flags`, `C53_mixed_negation`, `C53_repeated_complex_raises`, `C53_negative_gain`, `C53_order_negation` |
| C54 | offsets overflow `int` beyond 2^31 elements; 2^31 or more items or samples are returned unfiltered (CPU) or as uninitialised memory (CUDA) | `C54_lti_recur_overflow`, `C54_lti_recur_long`, `C54_cuda_lti_recur_uninitialised`, `C54_recurN_batched` |
| C55 | from a state other than zero a delayed signal does not give a delayed output; LPV functions with fixed coefficients are not time invariant (as expected of both) | `C55_state`, `C55_lpv_not` |
| C56 | for complex numbers the forms other than `df2` conjugate coefficients (C12), so the theorems ask for forms that do not | `Faithful` |
| C57 | `lpv.state_space_recursion` only for the unroll factors of C07 | `C57_lpv_recursion_partial` |
| C59 | relative error model: no overflow or underflow, the same rounding at every operation (contraction to fused multiply-add everywhere or nowhere); compiled ops only | `C59_devices_differ` |
| C60 | sufficient condition only (sum of the bounds below one); `tdf2` from rest; unroll factors and layouts as in C30, C07; exact arithmetic | `C60_frozen`, `C60_frozen_lfilter` |
| C61 | as C52 (`GoodShape`, first and last coefficient not zero) and C53 (all sections of the same kind, conjugate poles adjacent) | C52, C53 |
| C62 | `L`, `V`, `Vinv` are not compared with `a`: other poles silently replace the denominator and change the numerator to `b_k + b_0 (c_k - a_k)`; complex coefficients in form tdf2 with `Vinv = vandermonde(p).T` run the unconjugated poles; `V`, `Vinv` without `L` are ignored; repeated poles, batched poles without `V`, and poles and denominator with different batch axes raise | `C62_override_df2`, `C62_override_tdf2`, `C62_tdf2_complex`, `C62_basis_without_poles`, `C62_repeated_pole`, `C62_layout`, `C62_batched_poles_only` |
| C63 | numerators with more than P + 1 taps raise (the output alone is unpacked as a pair) unless the batch size is 2 | `C63_long_numerator` |

Seen while reading, not part of a theorem: the `x.view` of `filtfilt` needs compatible strides; `torch.arange` with a complex dtype raises in `cspline`; `polydiv`
writes in place, which autograd may refuse; the registered backward of the Helion ops calls the CUDA op for M = 2.

## Trusted base

* The Lean 4.33.0 kernel and the compiled `.olean` files of Mathlib.
* Axioms: every theorem of MANIFEST.json depends on a subset of `propext`, `Classical.choice`, `Quot.sound`; `AXIOMS.txt` lists them
  theorem by theorem (output of `#print axioms`, written by `tools/axioms.sh`).  No own axioms, no `sorry`, no `native_decide`, no
  `bv_decide`.
* The reading of the PyTorch operations in `Verif/Torch`, the assumptions listed above, and the transcription of the sources in
  `Verif/Model`.

## Mutation tests

`seeded/LOG.jsonl` lists edits of the model like realistic bugs, each built in a scratch copy, with the theorems that stopped
proving. Where `predicted_claim` is present, the claim written before the run was a different one and `claim` was
corrected after seeing which theorems failed.
