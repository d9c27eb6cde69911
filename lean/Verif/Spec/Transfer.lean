import Verif.Spec.Filter

/-!
# Transfer functions

`b(z)/a(z)` is represented by the coefficient sequences of `b` and `a`; products of polynomials in `1/z` are convolutions of
the coefficients.
-/

namespace Spec
open Finset
variable {α : Type} [CommRing α]

/-- Convolution of two sequences: the coefficients of the product of the two polynomials or power series. -/
def conv (f g : Nat → α) : Nat → α := fun n => ∑ k ∈ range (n + 1), f k * g (n - k)

/-- The denominator `1 + a_0/z + a_1/z² + … + a_{P-1}/z^P`. -/
def denom (P : Nat) (a : Nat → α) : Nat → α := fun n => if n = 0 then 1 else if n - 1 < P then a (n - 1) else 0

/-- `b/a` and `b'/a'` are the same rational function: the cross products agree. -/
def SameTransfer (K P K' P' : Nat) (b a b' a' : Nat → α) : Prop :=
  conv (zext K b) (denom P' a') = conv (zext K' b') (denom P a)

/-- `b/a` is the product of `b₁/a₁` and `b₂/a₂`. -/
def ProductTransfer (K P K₁ P₁ K₂ P₂ : Nat) (b a b₁ a₁ b₂ a₂ : Nat → α) : Prop :=
  conv (zext K b) (conv (denom P₁ a₁) (denom P₂ a₂)) = conv (denom P a) (conv (zext K₁ b₁) (zext K₂ b₂))

/-- The unit impulse. -/
def impulse : Nat → α := fun n => if n = 0 then 1 else 0

end Spec
