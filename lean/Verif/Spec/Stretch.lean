import Verif.Spec.Filter

/-!
# Sequences stretched by inserting zeros
-/

namespace Spec
open Torch Torch.Tensor
variable {α : Type} [Zero α]

/-- The last axis made `L` times as long: entry `n` of the last axis becomes entry `L * n + o`, all other entries are zero.  With
`o = 0` this puts `L - 1` zeros after each sample of a signal or each tap `b_0, b_1, …` of a numerator, and the tap of `z^-k` becomes
the one of `z^-(L k)`.  The denominator `a_1, a_2, …` starts with the coefficient of `z^-1` and needs `o = L - 1`. -/
def stretched (L o : Nat) (X : Tensor α) : Tensor α :=
  ofFn (X.shape.dropLast ++ [L * X.shape.getLastD 0]) fun l =>
    if l.getLastD 0 % L = o then X.get (l.dropLast ++ [l.getLastD 0 / L]) else 0

/-- The time axis (the last axis but one) of time-varying coefficients made `L` times as long by repeating each entry. -/
def held (L : Nat) (X : Tensor α) : Tensor α :=
  ofFn (X.shape.dropLast.dropLast ++ [L * X.shape.dropLast.getLastD 0, X.shape.getLastD 0]) fun l =>
    X.get (l.dropLast.dropLast ++ [l.dropLast.getLastD 0 / L, l.getLastD 0])

/-- The second call returns the output of the first with `L - 1` zeros after each sample. -/
def StretchedBy (L : Nat) (c c' : Torch.Res (Tensor α × Option (Tensor α))) : Prop :=
  ∃ y f₁ f₂, c = .ok (y, f₁) ∧ c' = .ok (stretched L 0 y, f₂)

end Spec
