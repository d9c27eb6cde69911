import Verif.Spec.Linear

/-!
# Delayed signals
-/

namespace Spec
open Torch Torch.Tensor
variable {α : Type} [CommRing α]

/-- The samples `x 0, x 1, …` preceded by `d` zeros. -/
def delayed (d : Nat) (x : Nat → α) : Nat → α := fun t => if t < d then 0 else x (t - d)

/-- The signal `X` delayed by `d` samples: `d` zeros come first and the last `d` samples are dropped.  Batch items and channels
are delayed alike. -/
def delayBy (d : Nat) (X : Tensor α) : Tensor α :=
  ofFn X.shape fun l => if l.getD (timeAxis X.shape) 0 < d then 0 else X.get (l.modify (timeAxis X.shape) (· - d))

/-- The second call returns the output of the first delayed by `d` samples. -/
def DelaysBy (d : Nat) (r r' : Torch.Res (Tensor α × Option (Tensor α))) : Prop :=
  ∃ y f₁ f₂, r = .ok (y, f₁) ∧ r' = .ok (delayBy d y, f₂)

/-- `f`, started in state `zi`, is time invariant on signals of shape `sx`: it succeeds on them, and when the signal is delayed
then the output is delayed by as much. -/
def TimeInvariantOn (f : Filter α) (sx : List Nat) (zi : Option (Tensor α)) : Prop :=
  ∀ (d : Nat) (x : Tensor α), x.shape = sx →
    DelaysBy d (f x zi) (f (delayBy d x) zi)

end Spec
