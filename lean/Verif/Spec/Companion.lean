import Mathlib.Algebra.BigOperators.Intervals
import Mathlib.Tactic.Ring

/-!
# Companion matrix, as a specification
-/

namespace Spec
variable {α : Type} [CommRing α]

/-- Elements of the companion matrix of `a 0, …, a (M-1)`: first row `-a`, ones below the diagonal. -/
def comp (a : Nat → α) (i j : Nat) : α := if i = 0 then -a j else if i = j + 1 then 1 else 0

end Spec
