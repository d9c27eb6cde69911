import Mathlib.Analysis.Complex.Basic

/-!
# Frequency response
-/

namespace Spec
open Finset

/-- The denominator `1 + a_0/z + … + a_{P-1}/z^P` at `z = w`. -/
noncomputable def denAt (P : Nat) (a : Nat → ℂ) (w : ℂ) : ℂ := 1 + ∑ k ∈ range P, a k * w⁻¹ ^ (k + 1)

/-- The transfer function `(b_0 + b_1/z + … + b_{K-1}/z^{K-1}) / (1 + a_0/z + … + a_{P-1}/z^P)` at `z = w`. -/
noncomputable def transferAt (K P : Nat) (b a : Nat → ℂ) (w : ℂ) : ℂ := (∑ j ∈ range K, b j * w⁻¹ ^ j) / denAt P a w

end Spec
