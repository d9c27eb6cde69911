import Verif.Proof.LpvFir
import Verif.Torch.Fails
import Mathlib.NumberTheory.Zsqrtd.GaussianInt

/-!
# C27: `lpv.fir`

Full claim: for every number of taps `M + 1 ≥ 1` and every length `N ≥ 1`, `fir` returns the convolution with the taps
in force at the output sample (`transpose=False`) or at the input sample (`transpose=True`), and the updated state.  The
direct form is right without restriction.  The transposed form fails with one tap and no state, with a state longer than
the signal, and (as the code conjugates `b`) for complex taps; the counterexamples are at the end.  `star` below is the
identity for real numbers.
-/

namespace Props
open Torch Torch.Tensor Spec Phil Phil.Lpv
open Phil.Lti (ok_pair)
variable {α : Type} [CommRing α] [StarRing α]

/-- **C27, direct form, no state.** `y_n = Σ_{j≤M} b_{n,j} x_{n-j}`. -/
theorem C27_direct {B M N : Nat} (b : Nat → Nat → Nat → α) (x : Nat → Nat → α) (hN : 0 < N) :
    fir (t3 B N (M + 1) b) (t2 B N x) none false =
      .ok (t2 B N fun i n => ∑ j ∈ Finset.range (M + 1), b i n j * causal (x i) ((n : Int) - j), none) := by
  rw [fir_none_eq _ _ _ (by omega), if_neg (by simp), Nat.add_sub_cancel]
  refine (firDirect_eq b x (fun _ _ => 0) false hN).trans ?_
  simp only [Bool.false_eq_true, if_false]
  rfl

example := C27_direct (B := 2) (M := 2) (N := 7) (fun i t k => (i : ℤ) - t * k) (fun i t => (i : ℤ) - t) (by decide)

/-- **C27, direct form with past inputs** `z_0 = x_{-1}, z_1 = x_{-2}, …`; the final state lists the last `M` inputs,
most recent first, also when `N < M`. -/
theorem C27_direct_state {B M N : Nat} (b : Nat → Nat → Nat → α) (x z : Nat → Nat → α) (hN : 0 < N) :
    fir (t3 B N (M + 1) b) (t2 B N x) (some (t2 B M z)) false =
      .ok (t2 B N fun i n => ∑ j ∈ Finset.range (M + 1), b i n j * withPast (z i) (x i) ((n : Int) - j),
        some (t2 B M fun i m => withPast (z i) (x i) ((N : Int) - 1 - m))) := by
  rw [fir_some_eq, if_neg (by simp), firDirect_eq b x z true hN]
  simp only [if_true]

example := C27_direct_state (B := 2) (M := 2) (N := 7) (fun i t k => (i : ℤ) - t * k) (fun i t => (i : ℤ) - t) (fun i t => (i : ℤ) * t) (by decide)

/-- **C27 (partial), transposed form, no state.** `y_n = Σ_{j≤M, j≤n} b_{n-j,j} x_{n-j}` for real taps.
Missing: `M = 0`. -/
theorem C27_transposed_partial {B M N : Nat} (b : Nat → Nat → Nat → α) (x : Nat → Nat → α) (hM : 0 < M) (hN : 0 < N) :
    fir (t3 B N (M + 1) b) (t2 B N x) none true =
      .ok (t2 B N fun i n => ∑ j ∈ Finset.range (M + 1),
        if j ≤ n then star (b i (n - j) j) * x i (n - j) else 0, none) := by
  rw [fir_transposed_none b x hM hN]
  refine ok_pair (t2_congr rfl rfl fun i n hi hn => Finset.sum_congr rfl fun j _ => ?_) rfl
  by_cases h : j ≤ n
  · rw [if_pos h, if_pos ⟨h, by omega⟩]
  · rw [if_neg h, if_neg (fun h' => h h'.1)]

example := C27_transposed_partial (B := 2) (M := 2) (N := 7) (fun i t k => (i : ℤ) - t * k) (fun i t => (i : ℤ) - t) (by decide) (by decide)

/-- **C27 (partial), transposed form with delay line**: `y_n = b_{n,0} x_n + s_0`, `s_m' = b_{n,m+1} x_n + s_{m+1}` with
`s_M = 0`, started from `zi`; the final delay line is returned.  Missing: `N < M`. -/
theorem C27_transposed_state_partial {B M N : Nat} (b : Nat → Nat → Nat → α) (x z : Nat → Nat → α) (hN : 0 < N)
    (hMN : M ≤ N) : ∃ (y : Nat → Nat → α) (s : Nat → Nat → Nat → α), (∀ i m, m < M → s i 0 m = z i m) ∧
      (∀ i n, y i n = star (b i n 0) * x i n + if 0 < M then s i n 0 else 0) ∧
      (∀ i n m, m < M → s i (n + 1) m = star (b i n (m + 1)) * x i n + if m + 1 < M then s i n (m + 1) else 0) ∧
      fir (t3 B N (M + 1) b) (t2 B N x) (some (t2 B M z)) true = .ok (t2 B N y, some (t2 B M fun i m => s i N m)) := by
  refine ⟨_, fun i => tvDelay M (fun n j => star (b i n j)) (z i) (x i), fun i m _ => rfl, fun i n => rfl,
    fun i n m _ => rfl, ?_⟩
  rw [fir_transposed_some b x z hN hMN]
  refine ok_pair (t2_congr rfl rfl fun i n hi hn => ?_) (congrArg some (t2_congr rfl rfl fun i m hi hm => ?_))
  · exact (tvDelay_out (fun n j => star (b i n j)) (z i) (x i) hn).symm
  · exact (tvDelay_final (fun n j => star (b i n j)) (z i) (x i) hMN hm).symm

/-- One tap, transposed form, no state: an error for two or more samples … -/
theorem C27_one_tap_transposed {B N : Nat} (b : Nat → Nat → Nat → α) (x : Nat → Nat → α) (hN : 2 ≤ N) :
    Fails (fir (t3 B N 1 b) (t2 B N x) none true) := by
  rw [fir_none_eq _ _ _ (by omega), if_pos rfl]
  unfold firTransposed
  have hd := diagShift_t3 (B := B) (T := N) (M := 1) b 0 true
  have h0 : pyStop (N + 1 + 0 - 1) (some (-(((1 : Nat) : Int) - 1 + ((0 : Nat) : Int)))) = 0 := by
    simp [pyStop, pyBound]
  rw [if_pos rfl, h0] at hd
  refine fails_bind fun s hs => ?_
  rw [Option.isNone_none, hd] at hs
  cases hs
  refine fails_bind fun sf hsf => ?_
  rw [flip_t3_2] at hsf
  cases hsf
  refine fails_bind fun p hp => ?_
  rw [size_t3_2, Option.isNone_none, if_pos rfl] at hp
  have hp := (padDim_t2_n1_both B N 0 0 x 0).symm.trans hp
  cases hp
  refine fails_bind fun w hw => ?_
  rw [size_t3_2, unfold_t2_1 _ _ _ _ (by omega)] at hw
  cases hw
  refine fails_left ?_
  have h1 : ¬ N - 1 = 0 := by omega
  unfold vecdot
  refine fails_check fun _ => ⟨"RuntimeError: linalg.vecdot: shapes do not broadcast", ?_⟩
  simp [bshape, bshapeR, bdim, h1]

example := C27_one_tap_transposed (B := 2) (N := 7) (fun i t k => (i : ℤ) - t * k) (fun i t => (i : ℤ) - t) (by decide)

/-- … and an empty output for one sample. -/
theorem C27_one_tap_one_sample :
    shape? ((fir (t3 1 1 1 fun _ _ _ => (1 : ℤ)) (t2 1 1 fun _ _ => 1) none true).map Prod.fst) = some [1, 0] := by
  decide +kernel

/-- Transposed form with a state and `N < M`: an error in general … -/
theorem C27_short_transposed :
    Fails (fir (t3 1 2 4 fun _ _ _ => (1 : ℤ)) (t2 1 2 fun _ _ => 1) (some (t2 1 3 fun _ _ => 0)) true) := by
  refine fails_of_isOk ?_
  decide +kernel

/-- … and for `N = 1` an output with `M` samples instead of one. -/
theorem C27_short_transposed_shape :
    shape? ((fir (t3 1 1 4 fun _ _ _ => (1 : ℤ)) (t2 1 1 fun _ _ => 1) (some (t2 1 3 fun _ _ => 0)) true).map Prod.fst) =
      some [1, 3] := by decide +kernel

/-- Complex taps: the transposed form conjugates them (`b = [i, 0]`, `x = [1]` gives `-i`), the direct form does not. -/
theorem C27_transposed_complex :
    at? ((fir (t3 1 1 2 fun _ _ j => if j = 0 then (⟨0, 1⟩ : GaussianInt) else 0) (t2 1 1 fun _ _ => 1) none true).map
      Prod.fst) [0, 0] = some ⟨0, -1⟩ ∧
    at? ((fir (t3 1 1 2 fun _ _ j => if j = 0 then (⟨0, 1⟩ : GaussianInt) else 0) (t2 1 1 fun _ _ => 1) none false).map
      Prod.fst) [0, 0] = some ⟨0, 1⟩ := by decide +kernel

/-- Non-vacuity: time-varying taps, three samples, delay line of length two. -/
example : ∃ (y : Nat → Nat → ℤ) (s : Nat → Nat → Nat → ℤ), (∀ i m, m < 2 → s i 0 m = (m : ℤ) + 5) ∧
    (∀ i n, y i n = star ((n : ℤ) + ((0 : Nat) : ℤ)) * ((n : ℤ) + 1) + if 0 < 2 then s i n 0 else 0) ∧
    (∀ i n m, m < 2 → s i (n + 1) m = star ((n : ℤ) + ((m + 1 : Nat) : ℤ)) * ((n : ℤ) + 1) +
      if m + 1 < 2 then s i n (m + 1) else 0) ∧
    fir (t3 1 3 3 fun _ n j => (n : ℤ) + (j : ℤ)) (t2 1 3 fun _ n => (n : ℤ) + 1) (some (t2 1 2 fun _ m => (m : ℤ) + 5))
      true = .ok (t2 1 3 y, some (t2 1 2 fun i m => s i 3 m)) :=
  C27_transposed_state_partial (fun _ n j => (n : ℤ) + (j : ℤ)) (fun _ n => (n : ℤ) + 1) (fun _ m => (m : ℤ) + 5)
    (by decide) (by decide)

/-- The two forms differ as soon as the taps vary in time. -/
example : at? ((fir (t3 1 2 2 fun _ n j => (n : ℤ) + j) (t2 1 2 fun _ _ => 1) none true).map Prod.fst) [0, 1] = some 2 ∧
    at? ((fir (t3 1 2 2 fun _ n j => (n : ℤ) + j) (t2 1 2 fun _ _ => 1) none false).map Prod.fst) [0, 1] = some 3 := by
  decide +kernel

end Props
