import Verif.Spec.Filter

/-!
# Spec: the change from states of direct form II to states of transposed direct form II

The states of form df2 are the last values of the internal signal, those of form tdf2 the partial sums in the delay line.  They are related
by the Bézout matrix of the numerator and the denominator.
-/

namespace Spec
open Finset
variable {α : Type}

/-- The coefficients `1, a_1, a_2, …` of the denominator, given `a_1, a_2, …`. -/
def withOne [One α] (a : Nat → α) : Nat → α
  | 0 => 1
  | k + 1 => a k

/-- The Bézout matrix of the polynomials with coefficients `b_0 … b_M` and `1, a_1 … a_M`:
entry `(m, l)` is the sum of `b_k a_j - a_k b_j` over all `j ≤ m < k` with `j + k = m + l + 1`. -/
def bezout [CommRing α] (M : Nat) (b a : Nat → α) (m l : Nat) : α :=
  ∑ k ∈ range (M + 1), ∑ j ∈ range (M + 1),
    if j ≤ m ∧ m < k ∧ j + k = m + l + 1 then b k * withOne a j - withOne a k * b j else 0

/-- The state of transposed direct form II that corresponds to the state `z` of direct form II. -/
def convertState [CommRing α] (M : Nat) (b a z : Nat → α) (m : Nat) : α := ∑ l ∈ range M, bezout M b a m l * z l

end Spec
