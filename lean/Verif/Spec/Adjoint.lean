import Verif.Spec.Filter

/-!
# Transposed filters

A linear map `F` and its transpose `F'` satisfy `⟨u, F x⟩ = ⟨F' u, x⟩`.  The transpose of a causal filter runs backwards in time, so
both the signal `u` given to it and the signal `w` it returns are written in reversed order.
-/

namespace Spec
open Torch Torch.Tensor Finset
variable {α : Type} [CommRing α] [StarRing α]

/-- `u` in reversed order, conjugated, times `y`. -/
def pairing (N : Nat) (u y : Nat → α) : α := ∑ n ∈ range N, star (u (N - 1 - n)) * y n

/-- The first call returns `y` for the signals `x`, the second `w` for the signals `u`, and `u` reversed in time paired with `y` is
`w` reversed in time paired with `x`: the second filter is the conjugate transpose of the first, run backwards. -/
def TransposedCalls (B N : Nat) (x u : Nat → Nat → α) (c c' : Res (Tensor α × Option (Tensor α))) : Prop :=
  ∃ y w f f', c = .ok (t2 B N y, f) ∧ c' = .ok (t2 B N w, f') ∧ ∀ i, i < B → pairing N (u i) (y i) = pairing N (w i) (x i)

end Spec
