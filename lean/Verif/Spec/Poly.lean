import Mathlib.Algebra.Polynomial.Basic
import Verif.Torch.Core

/-!
# Polynomials from coefficient rows
-/

namespace Spec
open Finset Polynomial Torch Torch.Tensor

/-- The polynomial with the `L` coefficients `c 0, …, c (L-1)`, highest degree first. -/
noncomputable def descPoly {α : Type} [CommRing α] (L : Nat) (c : Nat → α) : α[X] :=
  ∑ i ∈ range L, C (c i) * X ^ (L - 1 - i)

/-- The polynomial with the given coefficients, highest degree first. -/
noncomputable def listPoly {α : Type} [CommRing α] (l : List α) : α[X] := descPoly l.length fun i => l.getD i 0

/-- The rank combinations that `polydiv` accepts: dividend and divisor rows.  `flat` says whether the dividend has no batch
axis; then the divisor has none either. -/
inductive Divisor {α : Type} [Zero α] (B K : Nat) : Bool → Tensor α → (Nat → Nat → α) → Prop
  | flat (v : Nat → α) : Divisor B K true (t1 K v) fun _ => v
  | shared (v : Nat → α) : Divisor B K false (t1 K v) fun _ => v
  | batched (v : Nat → Nat → α) : Divisor B K false (t2 B K v) v

end Spec
