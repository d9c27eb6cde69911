import Verif.Spec.Filter

/-!
# Comparison of calls

A relation `R` between the values of two computations that every sum and every product with related coefficients preserves.  Examples:
`u ≤ v` with equal coefficients that are not negative, `|u| ≤ v` or `‖u‖ ≤ v` with coefficients `‖a‖ ≤ b` (Verif/Props/C75.lean).
-/

namespace Spec
open Torch Torch.Tensor

/-- Coefficients related by `Q` keep values related by `R`. -/
structure Comparison {α β : Type} [CommRing α] [CommRing β] (Q R : α → β → Prop) : Prop where
  zero : R 0 0
  add {u v u' v'} : R u v → R u' v' → R (u + u') (v + v')
  mul {a b u v} : Q a b → R u v → R (a * u) (b * v)

/-- Both calls return tensors of shape `(B, N)`, with related entries. -/
def ComparedCalls {α β : Type} [Zero α] [Zero β] (R : α → β → Prop) (B N : Nat) (c : Res (Tensor α × Option (Tensor α)))
    (c' : Res (Tensor β × Option (Tensor β))) : Prop :=
  ∃ y y' f f', c = .ok (t2 B N y, f) ∧ c' = .ok (t2 B N y', f') ∧ ∀ i, i < B → ∀ n, n < N → R (y i n) (y' i n)

/-- Both calls return tensors of shape `(B, N)` and final states of shape `(B, M)`, with related entries. -/
def ComparedStates {α β : Type} [Zero α] [Zero β] (R : α → β → Prop) (B N M : Nat) (c : Res (Tensor α × Option (Tensor α)))
    (c' : Res (Tensor β × Option (Tensor β))) : Prop :=
  ∃ y y' f f', c = .ok (t2 B N y, some (t2 B M f)) ∧ c' = .ok (t2 B N y', some (t2 B M f')) ∧
    ∀ i, i < B → (∀ n, n < N → R (y i n) (y' i n)) ∧ ∀ m, m < M → R (f i m) (f' i m)

end Spec
