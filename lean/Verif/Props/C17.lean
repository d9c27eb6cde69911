import Verif.Proof.LtiFiltering

/-!
# C17: `lti.fir`

Full claim: for every number of taps `M + 1 ≥ 1` and every length `N ≥ 1`, `fir` returns the convolution with the given
past (`transpose=False`) or delay line (`transpose=True`), and the updated state.  The code does this for `M ≥ 1`, and in
the transposed form with a state only for `M ≤ N`; the counterexamples at the end show that these restrictions are
needed.  In the transposed form complex coefficients are conjugated, hence `TrivialStar` (real numbers) there.
-/

namespace Props
open Torch Torch.Tensor Spec Phil Phil.Lti
variable {α : Type} [CommRing α] [StarRing α]

/-- **C17 (partial), direct form, no state.** `y_n = Σ_{j≤M} b_j x_{n-j}`; any `M ≥ 0`, `N ≥ 1`. -/
theorem C17_direct {B M N : Nat} (b x : Nat → Nat → α) (hB : 0 < B) (hN : 0 < N) :
    fir (t2 B (M + 1) b) (t2 B N x) none false =
      .ok (t2 B N fun i n => ∑ j ∈ Finset.range (M + 1), b i j * causal (x i) ((n : Int) - j), none) :=
  fir_direct_none b x hB hN

example := C17_direct (B := 2) (M := 2) (N := 5) (fun i j => (i : ℤ) + j) (fun i t => (i : ℤ) * t) (by decide) (by decide)

/-- **C17 (partial), direct form with past inputs** `z_0 = x_{-1}, z_1 = x_{-2}, …`; the final state lists the last `M`
inputs, most recent first, also when `N < M`.  Missing: `M = 0`. -/
theorem C17_direct_state_partial {B M N : Nat} (b x z : Nat → Nat → α) (hB : 0 < B) (hM : 0 < M) (hN : 0 < N) :
    fir (t2 B (M + 1) b) (t2 B N x) (some (t2 B M z)) false =
      .ok (t2 B N fun i n => ∑ j ∈ Finset.range (M + 1), b i j * withPast (z i) (x i) ((n : Int) - j),
        some (t2 B M fun i m => withPast (z i) (x i) ((N : Int) - 1 - m))) :=
  fir_direct_some b x z hB hM hN

/-- **C17 (partial), transposed form, no state** (real numbers).  Missing: `M = 0`. -/
theorem C17_transposed_partial [TrivialStar α] {B M N : Nat} (b x : Nat → Nat → α) (hB : 0 < B) (hM : 0 < M) (hN : 0 < N) :
    fir (t2 B (M + 1) b) (t2 B N x) none true =
      .ok (t2 B N fun i n => ∑ j ∈ Finset.range (M + 1), b i j * causal (x i) ((n : Int) - j), none) := by
  rw [fir_transpose_none b x hB hN hM]
  simp only [star_trivial]
  rfl

example := C17_transposed_partial (B := 2) (M := 2) (N := 5) (fun i j => (i : ℤ) + j) (fun i t => (i : ℤ) * t) (by decide) (by decide)
  (by decide)

/-- **C17 (partial), transposed form with delay line** (real numbers): `y_n = b_0 x_n + s_0`,
`s_m' = b_{m+1} x_n + s_{m+1}` with `s_M = 0`, started from `zi`; the final delay line is returned.
Missing: `M = 0` and `N < M`. -/
theorem C17_transposed_state_partial [TrivialStar α] {B M N : Nat} (b x z : Nat → Nat → α) (hB : 0 < B) (hM : 0 < M)
    (hMN : M ≤ N) : ∃ (y : Nat → Nat → α) (s : Nat → Nat → Nat → α), (∀ i m, m < M → s i 0 m = z i m) ∧
      (∀ i n, y i n = b i 0 * x i n + s i n 0) ∧
      (∀ i n m, m < M → s i (n + 1) m = b i (m + 1) * x i n + if m + 1 < M then s i n (m + 1) else 0) ∧
      fir (t2 B (M + 1) b) (t2 B N x) (some (t2 B M z)) true = .ok (t2 B N y, some (t2 B M fun i m => s i N m)) := by
  refine ⟨_, fun i => delayLine M (b i) (z i) (x i), fun i m _ => rfl, fun i n => rfl, fun i n m _ => rfl, ?_⟩
  rw [fir_transpose_some b x z hB hM hMN]
  simp only [star_trivial]
  refine ok_pair (t2_congr rfl rfl fun i n hi hn => ?_) (congrArg some (t2_congr rfl rfl fun i m hi hm => ?_))
  · exact (delayLine_out hM (b i) (z i) (x i) n).symm
  · exact (delayLine_final (b i) (z i) (x i) hMN hm).symm

/-- One tap, transposed form: the output is empty, whatever the signal. -/
theorem C17_one_tap_transposed {B N : Nat} (b x : Nat → Nat → α) (hB : 0 < B) (hN : 0 < N) :
    fir (t2 B 1 b) (t2 B N x) none true = .ok (t2 B 0 fun _ _ => 0, none) := by
  rw [fir_eq b x true (fun z hz => by cases hz), if_pos rfl, firTransposed, size_t2_0, size_t2_1]
  refine bind_step (unsqueeze_t2_0 _ _ _) (bind_step (unsqueeze_t2_1 _ _ _) ?_)
  rw [conj_t3]
  refine bind_step (convTranspose1d_eq _ _ hB (by omega) hN) (bind_step (squeeze_t3_0 _ _ _) ?_)
  simp only []
  refine bind_step (slice_t2_1 _ _ _ _ _) ?_
  rw [pure_eq_ok]
  refine ok_pair (t2_congr rfl ?_ fun i t hi ht => ?_) rfl
  · simp [pyStop, pyBound]
  · simp [pyStop, pyBound] at ht

example := C17_one_tap_transposed (B := 2) (N := 5) (fun i j => (i : ℤ) + j) (fun i t => (i : ℤ) * t) (by decide) (by decide)

/-- One tap, direct form with an (empty) state: the final state should be empty, but the whole signal is returned. -/
theorem C17_one_tap_direct_state :
    shape? ((fir (t2 1 1 fun _ _ => (1 : ℤ)) (t2 1 3 fun _ _ => 1) (some (t2 1 0 fun _ _ => 0)) false).map
      fun r => r.2.getD (t0 0)) = some [1, 3] := by decide +kernel

/-- Transposed form with a state and `N < M`: an error in general … -/
theorem C17_short_transposed :
    Fails (fir (t2 1 4 fun _ _ => (1 : ℤ)) (t2 1 2 fun _ _ => 1) (some (t2 1 3 fun _ _ => 0)) true) := by
  refine fails_of_isOk ?_
  decide +kernel

/-- … and for `N = 1` an output with `M` samples instead of one. -/
theorem C17_short_transposed_shape :
    shape? ((fir (t2 1 4 fun _ _ => (1 : ℤ)) (t2 1 1 fun _ _ => 1) (some (t2 1 3 fun _ _ => 0)) true).map Prod.fst) =
      some [1, 3] := by decide +kernel

/-- Transposed form with `M ≤ N < 2M` is still right: three samples, delay line of length two. -/
example : ∃ (y : Nat → Nat → ℤ) (s : Nat → Nat → Nat → ℤ), (∀ i m, m < 2 → s i 0 m = (m : ℤ) + 5) ∧
    (∀ i n, y i n = 0 * ((n : ℤ) + 1) + s i n 0) ∧
    (∀ i n m, m < 2 → s i (n + 1) m = ((m + 1 : Nat) : ℤ) * ((n : ℤ) + 1) + if m + 1 < 2 then s i n (m + 1) else 0) ∧
    fir (t2 1 3 fun _ j => (j : ℤ)) (t2 1 3 fun _ n => (n : ℤ) + 1) (some (t2 1 2 fun _ m => (m : ℤ) + 5)) true =
      .ok (t2 1 3 y, some (t2 1 2 fun i m => s i 3 m)) :=
  C17_transposed_state_partial (fun _ j => (j : ℤ)) (fun _ n => (n : ℤ) + 1) (fun _ m => (m : ℤ) + 5) (by decide) (by decide)
    (by decide)

/-- Direct form with fewer samples than past values. -/
example : fir (t2 1 4 fun _ j => (j : ℤ)) (t2 1 2 fun _ n => (n : ℤ) + 1) (some (t2 1 3 fun _ m => (m : ℤ) + 5)) false =
    .ok (t2 1 2 fun _ n => ∑ j ∈ Finset.range 4, (j : ℤ) * withPast (fun m => (m : ℤ) + 5) (fun n => (n : ℤ) + 1) ((n : Int) - j),
      some (t2 1 3 fun _ m => withPast (fun m => (m : ℤ) + 5) (fun n => (n : ℤ) + 1) (((2 : Nat) : Int) - 1 - m))) :=
  C17_direct_state_partial (fun _ j => (j : ℤ)) (fun _ n => (n : ℤ) + 1) (fun _ m => (m : ℤ) + 5) (by decide) (by decide)
    (by decide)

end Props
