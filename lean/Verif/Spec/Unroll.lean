import Verif.Model.LtiStateSpace
import Mathlib.Data.Nat.Factors

/-! # Unroll factors -/

namespace Props
open Phil

/-- The unroll factors for which the blocked recursion is correct (C07). -/
def GoodUnroll (N : Nat) (u : Option Int) : Prop :=
  1 ≤ u.getD (roundSqrt N) ∧
    (u.getD (roundSqrt N) ≤ 2 ∨ (N : Int) ≤ u.getD (roundSqrt N) ∨ ((u.getD (roundSqrt N)).toNat - 1).Prime)

/-- The unroll factors for which the blocked recursion is correct for matrices that commute with each other (C07). -/
def FewPrimes (N : Nat) (u : Option Int) : Prop :=
  1 ≤ u.getD (roundSqrt N) ∧
    (u.getD (roundSqrt N) ≤ 2 ∨ (N : Int) ≤ u.getD (roundSqrt N) ∨
      ((u.getD (roundSqrt N)).toNat - 1).primeFactorsList.length ≤ 2)

/-- The unroll factors for which the blocked recursion is correct for all matrices of size `M`. -/
def FilterUnroll (M N : Nat) (u : Option Int) : Prop := GoodUnroll N u ∨ M = 1 ∧ FewPrimes N u

end Props
