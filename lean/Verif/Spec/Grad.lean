import Verif.Spec.Recur
import Mathlib.Algebra.Star.BigOperators

/-!
# Derivatives of the recurrences, and inner products

These definitions do not refer to the model of the code.  `dScalarRec`/`dVecRec` are the directional derivatives of
`scalarRec`/`vecRec`; that they are derivatives is proved in `Props.C35_tangent` and `Props.C36_tangent`.
-/

namespace Spec
open Finset

section
variable {α : Type} [CommRing α]

/-- Derivative of `scalarRec a init x` in the direction `(da, dinit, dx)`. -/
def dScalarRec (a da : Nat → α) (init dinit : α) (x dx : Nat → α) : Nat → α
  | 0 => dinit
  | t + 1 => a t * dScalarRec a da init dinit x dx t + da t * scalarRec a init x t + dx t

/-- Derivative of `vecRec M A init x` in the direction `(dA, dinit, dx)`. -/
def dVecRec (M : Nat) (A dA : Nat → Nat → Nat → α) (init dinit : Nat → α) (x dx : Nat → Nat → α) :
    Nat → Nat → α
  | 0 => dinit
  | t + 1 => fun i => ∑ k ∈ range M, A t i k * dVecRec M A dA init dinit x dx t k +
      ∑ k ∈ range M, dA t i k * vecRec M A init x t k + dx t i

end

section
variable {α : Type} [CommRing α] [StarRing α]

/-- `⟨f, g⟩ = ∑ conj(f) g` over one axis. -/
def ip1 (n : Nat) (f g : Nat → α) : α := ∑ i ∈ range n, star (f i) * g i
/-- Inner product over two axes. -/
def ip2 (n m : Nat) (f g : Nat → Nat → α) : α := ∑ i ∈ range n, ip1 m (f i) (g i)
/-- Inner product over three axes. -/
def ip3 (n m p : Nat) (f g : Nat → Nat → Nat → α) : α := ∑ i ∈ range n, ip2 m p (f i) (g i)
/-- Inner product over four axes. -/
def ip4 (n m p q : Nat) (f g : Nat → Nat → Nat → Nat → α) : α := ∑ i ∈ range n, ip3 m p q (f i) (g i)

end
end Spec
