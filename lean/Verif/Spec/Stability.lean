import Mathlib.Analysis.Complex.Basic
import Mathlib.Algebra.Polynomial.Roots

/-!
# Poles
-/

namespace Spec
open Polynomial Finset

/-- The denominator `1 + a_0/z + … + a_{P-1}/z^P` times `z^P`. -/
noncomputable def denPoly (P : Nat) (a : Nat → ℂ) : ℂ[X] := X ^ P + ∑ k ∈ range P, C (a k) * X ^ (P - 1 - k)

/-- The poles of the filter with denominator `1 + a_0/z + … + a_{P-1}/z^P`, with multiplicities. -/
noncomputable def poles (P : Nat) (a : Nat → ℂ) : Multiset ℂ := (denPoly P a).roots

end Spec
