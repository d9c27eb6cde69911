import Mathlib.Algebra.BigOperators.Intervals
import Mathlib.Tactic.Ring

/-!
# Specifications of scalar and vector recurrences

These definitions do not refer to the model of the code.
-/

namespace Spec
open Finset

variable {α : Type} [CommRing α]

/-- Scalar recurrence `h 0 = init`, `h (t+1) = a t * h t + x t`.
`scalarRec a init x (t+1)` is the output at time `t`. -/
def scalarRec (a : Nat → α) (init : α) (x : Nat → α) : Nat → α
  | 0 => init
  | t + 1 => a t * scalarRec a init x t + x t

/-- Vector recurrence of dimension `M`: `h 0 = init`, `h (t+1) = A t · h t + x t`. -/
def vecRec (M : Nat) (A : Nat → Nat → Nat → α) (init : Nat → α) (x : Nat → Nat → α) :
    Nat → Nat → α
  | 0 => init
  | t + 1 => fun i => ∑ k ∈ range M, A t i k * vecRec M A init x t k + x t i

end Spec
