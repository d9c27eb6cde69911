import Verif.Torch.Loop

/-!
# One-dimensional convolution of one channel with several kernels

`torch.nn.functional.conv1d` for an input with one channel: stride 1, no padding, no bias.
-/

namespace Torch.Tensor
open Finset
variable {α : Type} [CommRing α]

/-- `F.conv1d(x, w)` for `x` of shape `(n, 1, L)` and `w` of shape `(g, 1, K)`: cross-correlation. -/
def conv1dOne (x w : Tensor α) : Res (Tensor α) := do
  check (x.rank = 3 ∧ w.rank = 3) "RuntimeError: conv1d expects 3D input and weight (only these are modelled)"
  check (x.size 1 = 1 ∧ w.size 1 = 1) "RuntimeError: conv1d: channels (only one input channel is modelled)"
  check (0 < w.size 2 ∧ w.size 2 ≤ x.size 2) "RuntimeError: Kernel size can't be greater than actual input size"
  return t3 (x.size 0) (w.size 0) (x.size 2 - w.size 2 + 1) fun n c t =>
    ∑ k ∈ range (w.size 2), w.get [c, 0, k] * x.get [n, 0, t + k]

theorem conv1dOne_eq {n g L K : Nat} (x w : Nat → Nat → Nat → α) (hK : 0 < K) (hL : K ≤ L) :
    conv1dOne (t3 n 1 L x) (t3 g 1 K w) =
      .ok (t3 n g (L - K + 1) fun n c t => ∑ k ∈ range K, w c 0 k * x n 0 (t + k)) := by
  unfold conv1dOne
  refine check_step ⟨rank_t3 _ _ _ _, rank_t3 _ _ _ _⟩ (check_step ?_ (check_step ?_ ?_))
  · simp
  · simp [hK, hL]
  · simp only [size_t3_0, size_t3_2, pure_eq_ok]
    refine congrArg Except.ok (t3_congr rfl rfl rfl fun i c t hi hc ht => sum_congr rfl fun k hk => ?_)
    have := mem_range.1 hk
    have hc' : c < g := hc
    have hi' : i < n := hi
    have ht' : t < L - K + 1 := ht
    rw [get_t3 hc' (by omega) this, get_t3 hi' (by omega) (by omega)]

end Torch.Tensor
