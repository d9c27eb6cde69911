import Verif.Proof.Companion
import Mathlib.Tactic.IntervalCases

/-!
# C24: companion and Vandermonde matrices
-/

namespace Props
open Torch Torch.Tensor Phil.Mat Spec Finset
variable {α : Type} [CommRing α]

/-- **C24**, shape of the companion matrix: first row `-a`, ones below the diagonal, zero elsewhere. -/
theorem C24_companion {M : Nat} (a : Nat → α) (hM : 0 < M) :
    companion (t1 M a) = .ok (t2 M M fun i j => if i = 0 then -a j else if i = j + 1 then 1 else 0) :=
  companion_t1 a hM

example := C24_companion (M := 3) (fun k => (k : ℤ) + 1) (by decide)

theorem C24_companion_batched {B M : Nat} (a : Nat → Nat → α) (hM : 0 < M) :
    companion (t2 B M a) = .ok (t3 B M M fun b i j => if i = 0 then -a b j else if i = j + 1 then 1 else 0) :=
  companion_t2 a hM

example := C24_companion_batched (B := 2) (M := 3) (fun b k => (b : ℤ) + k) (by decide)

theorem C24_companion_time_varying {B N M : Nat} (a : Nat → Nat → Nat → α) (hM : 0 < M) :
    companion (t3 B N M a) =
      .ok (t4 B N M M fun b t i j => if i = 0 then -a b t j else if i = j + 1 then 1 else 0) :=
  companion_t3 a hM

example := C24_companion_time_varying (B := 2) (N := 5) (M := 3) (fun b t k => (b : ℤ) + t * k) (by decide)

/-- **C24**, characteristic recursion: multiplying the history `w[n-1], w[n-2], …, w[n-M]` by the companion matrix gives
the history one step later, whose newest value is `-Σ_k a_k w[n-k]`. -/
theorem C24_companion_recursion {M : Nat} (a w : Nat → α) (hM : 0 < M) :
    (companion (t1 M a) >>= fun c => matmul c (t1 M w)) =
      .ok (t1 M fun i => if i = 0 then - ∑ k ∈ range M, a k * w k else w (i - 1)) := by
  rw [companion_t1 a hM, ok_bind, matmul_mp_p]
  refine congrArg Except.ok (t1_congr rfl fun i hi => ?_)
  unfold comp
  by_cases h0 : i = 0
  · simp [h0]
  · simp only [if_neg h0]
    rw [Finset.sum_eq_single (i - 1)]
    · rw [if_pos (by omega), one_mul]
    · intro k _ hk
      rw [if_neg (by omega), zero_mul]
    · intro h; exact absurd (Finset.mem_range.mpr (by omega)) h

example := C24_companion_recursion (M := 3) (fun k => (k : ℤ) + 1) (fun k => (k : ℤ) - 1) (by decide)

/-- **C24**, eigenvectors: if every `p j` is a root of `z^M + a_0 z^(M-1) + … + a_(M-1)`, then
`companion(a) @ vandermonde(p)` is `vandermonde(p)` with column `j` scaled by `p j`. -/
theorem C24_eigenvectors {M : Nat} (a p : Nat → α) (hM : 0 < M)
    (hp : ∀ j, j < M → p j ^ M + ∑ k ∈ range M, a k * p j ^ (M - 1 - k) = 0) :
    (do let c ← companion (t1 M a); let v ← vandermonde (t1 M p); matmul c v) =
      (do let v ← vandermonde (t1 M p); mul v (t1 M p)) := by
  refine bind_step (companion_t1 a hM) (bind_step (vandermonde_t1 p) ?_)
  rw [vandermonde_t1, ok_bind, matmul_nm_mp, mul, zipWith_nm_m]
  refine congrArg Except.ok (t2_congr rfl rfl fun i j hi hj => ?_)
  exact comp_mul_powers a (p j) (hp j hj) hi

/-- **C24 is false for batches.**  The docstring of `vandermonde` gives the shape `(..., M)`, but a batch of tuples of two
or more poles, of whatever shape, raises: `torch.vander` takes one-dimensional tensors only. -/
theorem C24_vandermonde_rejects_batches {p : Tensor α} (hr : p.rank ≠ 1) (hM : p.size (-1) ≠ 1) :
    Fails (vandermonde p) := vandermonde_batch hM hr

/-- Batches of single poles are accepted, and there the eigenvector identity holds. -/
theorem C24_eigenvectors_single {B : Nat} (a p : Nat → Nat → α) (hp : ∀ b, b < B → p b 0 + a b 0 = 0) :
    (do let c ← companion (t2 B 1 a); let v ← vandermonde (t2 B 1 p); matmul c v) =
      (do let v ← vandermonde (t2 B 1 p); let q ← unsqueeze (t2 B 1 p) (-2); mul v q) := by
  refine bind_step (companion_t2 a one_pos) (bind_step (vandermonde_one p) ?_)
  rw [vandermonde_one, ok_bind, unsqueeze_t2_n2, ok_bind, matmul_nmp_npq, mul, zipWith_nmp_n1p]
  refine congrArg Except.ok (t3_congr rfl rfl rfl fun b i j hb hi hj => ?_)
  obtain rfl : i = 0 := by omega
  obtain rfl : j = 0 := by omega
  rw [Finset.sum_range_one, comp, if_pos rfl, one_mul, mul_one]
  exact (eq_neg_of_add_eq_zero_left (hp b hb)).symm

example := C24_eigenvectors_single (B := 2) (fun b _ => (b : ℤ)) (fun b _ => -(b : ℤ)) (by simp)

example : Fails (vandermonde (t2 3 2 fun _ j => (j : ℤ))) :=
  C24_vandermonde_rejects_batches (by decide) (by decide)

/-- The entries of the Vandermonde matrix (highest power on top). -/
theorem C24_vandermonde {M : Nat} (p : Nat → α) :
    vandermonde (t1 M p) = .ok (t2 M M fun i j => p j ^ (M - 1 - i)) := vandermonde_t1 p

/-- A 0-D argument is rejected. -/
theorem C24_companion_rejects_scalar (a : α) : Fails (companion (t0 a)) := by
  unfold companion
  exact fails_check fun h => absurd h (by simp [rank, t0, shape_ofFn])

/-- Non-vacuity: `z² - 5z + 6` has the roots 2 and 3. -/
example : (do let c ← companion (t1 2 fun k => if k = 0 then (-5 : ℤ) else 6)
              let v ← vandermonde (t1 2 fun j => (j : ℤ) + 2); matmul c v) =
    (do let v ← vandermonde (t1 2 fun j => (j : ℤ) + 2); mul v (t1 2 fun j => (j : ℤ) + 2)) := by
  refine C24_eigenvectors _ _ (by omega) fun j hj => ?_
  interval_cases j <;> decide

end Props
