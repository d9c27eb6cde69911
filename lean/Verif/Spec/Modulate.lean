import Verif.Spec.Linear

/-!
# Signals weighted by a geometric sequence
-/

namespace Spec
open Torch Torch.Tensor
variable {α : Type} [CommRing α]

/-- The signal `X` with sample `t` multiplied by `r ^ t`, in every batch item and channel. -/
def weighted (r : α) (X : Tensor α) : Tensor α :=
  ofFn X.shape fun l => r ^ l.getD (timeAxis X.shape) 0 * X.get l

/-- Coefficients with number `k` of the last axis multiplied by `r ^ (k + c)`.  The numerator `b_0, b_1, …` starts with `r ^ 0`
(`c = 0`), the denominator `a_1, a_2, …` with `r ^ 1` (`c = 1`). -/
def tapered (c : Nat) (r : α) (X : Tensor α) : Tensor α :=
  ofFn X.shape fun l => r ^ (l.getLastD 0 + c) * X.get l

/-- All entries multiplied by `r`. -/
def scaled (r : α) (X : Tensor α) : Tensor α := ofFn X.shape fun l => r * X.get l

/-- The second call returns the output of the first with sample `t` multiplied by `r ^ t`. -/
def WeightedBy (r : α) (c c' : Torch.Res (Tensor α × Option (Tensor α))) : Prop :=
  ∃ y f₁ f₂, c = .ok (y, f₁) ∧ c' = .ok (weighted r y, f₂)

end Spec
