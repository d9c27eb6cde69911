import Verif.Torch.Loop

/-!
# Depthwise one-dimensional convolutions

`torch.nn.functional.conv1d` and `conv_transpose1d` in the way philtorch calls them: stride 1, no padding, no bias, one
kernel per channel (`groups` equal to the number of channels, weight of shape `(groups, 1, K)`).
-/

namespace Torch.Tensor
open Finset
variable {α : Type} [CommRing α]

/-- `F.conv1d(x, w, groups=g)` for `x` of shape `(n, g, L)` and `w` of shape `(g, 1, K)`: cross-correlation,
no conjugation. -/
def conv1d (x w : Tensor α) (g : Nat) : Res (Tensor α) := do
  check (x.rank = 3 ∧ w.rank = 3) "RuntimeError: conv1d expects 3D input and weight (only these are modelled)"
  check (0 < g ∧ x.size 1 = g ∧ w.size 0 = g ∧ w.size 1 = 1) "RuntimeError: conv1d: channels (only depthwise is modelled)"
  check (0 < w.size 2 ∧ w.size 2 ≤ x.size 2) "RuntimeError: Kernel size can't be greater than actual input size"
  return t3 (x.size 0) g (x.size 2 - w.size 2 + 1) fun n c t =>
    ∑ k ∈ range (w.size 2), w.get [c, 0, k] * x.get [n, c, t + k]

/-- `F.conv_transpose1d(x, w, groups=g)` for `x` of shape `(n, g, L)` and `w` of shape `(g, 1, K)`: full convolution, no
conjugation. -/
def convTranspose1d (x w : Tensor α) (g : Nat) : Res (Tensor α) := do
  check (x.rank = 3 ∧ w.rank = 3) "RuntimeError: conv_transpose1d expects 3D input and weight (only these are modelled)"
  check (0 < g ∧ x.size 1 = g ∧ w.size 0 = g ∧ w.size 1 = 1)
    "RuntimeError: conv_transpose1d: channels (only depthwise is modelled)"
  check (0 < w.size 2 ∧ 0 < x.size 2) "RuntimeError: non-empty 3D tensor expected"
  return t3 (x.size 0) g (x.size 2 + w.size 2 - 1) fun n c t =>
    ∑ k ∈ range (w.size 2), if k ≤ t ∧ t - k < x.size 2 then w.get [c, 0, k] * x.get [n, c, t - k] else 0

theorem conv1d_eq {n g L K : Nat} (x w : Nat → Nat → Nat → α) (hg : 0 < g) (hK : 0 < K) (hL : K ≤ L) :
    conv1d (t3 n g L x) (t3 g 1 K w) g =
      .ok (t3 n g (L - K + 1) fun n c t => ∑ k ∈ range K, w c 0 k * x n c (t + k)) := by
  unfold conv1d
  refine check_step ⟨rank_t3 _ _ _ _, rank_t3 _ _ _ _⟩ (check_step ?_ (check_step ?_ ?_))
  · simp [hg]
  · simp [hK, hL]
  · simp only [size_t3_0, size_t3_2, pure_eq_ok]
    refine congrArg Except.ok (t3_congr rfl rfl rfl fun i c t hi hc ht => sum_congr rfl fun k hk => ?_)
    have := mem_range.1 hk
    rw [get_t3 hc (by omega) this, get_t3 hi hc (by omega)]

theorem convTranspose1d_eq {n g L K : Nat} (x w : Nat → Nat → Nat → α) (hg : 0 < g) (hK : 0 < K) (hL : 0 < L) :
    convTranspose1d (t3 n g L x) (t3 g 1 K w) g =
      .ok (t3 n g (L + K - 1) fun n c t =>
        ∑ k ∈ range K, if k ≤ t ∧ t - k < L then w c 0 k * x n c (t - k) else 0) := by
  unfold convTranspose1d
  refine check_step ⟨rank_t3 _ _ _ _, rank_t3 _ _ _ _⟩ (check_step ?_ (check_step ?_ ?_))
  · simp [hg]
  · simp [hK, hL]
  · simp only [size_t3_0, size_t3_2, pure_eq_ok]
    refine congrArg Except.ok (t3_congr rfl rfl rfl fun i c t hi hc ht => sum_congr rfl fun k hk => ?_)
    have := mem_range.1 hk
    split
    · rw [get_t3 hc (by omega) this, get_t3 hi hc (by omega)]
    · rfl

end Torch.Tensor
