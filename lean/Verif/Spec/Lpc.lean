import Verif.Spec.Filter

/-!
# What is assumed about `torchlpc.sample_wise_lpc`

`torchlpc` is another package.  `sample_wise_lpc(x, a, zi)` is documented to compute
`y_t = x_t - Σ_i a_{t,i} y_{t-i-1}` with `zi[:, i] = y_{-i-1}`, and `return_zf` returns the last `order` outputs, most
recent first.  Theorems about functions that call it assume `IsLpc`, nothing more.
-/

namespace Spec
open Torch Torch.Tensor Finset
variable {α : Type} [CommRing α]

/-- The optional initial state argument: absent (zero) or one row per batch item. -/
inductive LpcState (B M : Nat) : Option (Tensor α) → (Nat → Nat → α) → Prop
  | zero : LpcState B M none fun _ _ => 0
  | given (z : Nat → Nat → α) : LpcState B M (some (t2 B M z)) z

/-- `y` is the all-pole filter output for the input `x`, coefficients `a n k` at time `n` and past outputs `z`, on the
first `T` samples. -/
def AllPole (T M : Nat) (a : Nat → Nat → α) (z x y : Nat → α) : Prop :=
  ∀ n, n < T → y n = x n - ∑ k ∈ range M, a n k * withPast z y ((n : Int) - 1 - k)

/-- The contract of `sample_wise_lpc`: it solves the all-pole recursion; the returned state is only specified when the
signal is at least as long as the filter order. -/
def IsLpc (lpc : Tensor α → Tensor α → Option (Tensor α) → Res (Tensor α × Tensor α)) : Prop :=
  ∀ (B T M : Nat) (x : Nat → Nat → α) (a : Nat → Nat → Nat → α) (zi : Option (Tensor α)) (z : Nat → Nat → α),
    0 < T → 0 < M → LpcState B M zi z → ∃ (y : Nat → Nat → α) (zf : Tensor α),
      lpc (t2 B T x) (t3 B T M a) zi = .ok (t2 B T y, zf) ∧ (∀ i, AllPole T M (a i) (z i) (x i) (y i)) ∧
      (M ≤ T → zf = t2 B M fun i m => withPast (z i) (y i) ((T : Int) - 1 - m))

end Spec
