import Verif.Spec.Transfer
import Mathlib.Analysis.Complex.Basic

/-!
# All-pass filters and energy
-/

namespace Spec
open Finset

/-- The numerator is the conjugated denominator read backwards: `b_0 … b_P = conj(a_P) … conj(a_1), 1`. -/
def AllPass (P : Nat) (b a : Nat → ℂ) : Prop := ∀ j, j ≤ P → b j = (starRingEnd ℂ) (denom P a (P - j))

/-- The energy of the first `n` samples. -/
noncomputable def energy (x : Nat → ℂ) (n : Nat) : ℝ := ∑ t ∈ range n, ‖x t‖ ^ 2

end Spec
