import Verif.Torch.Linalg
import Mathlib.LinearAlgebra.Matrix.Charpoly.Basic

/-!
# State-space models as matrices

Mathlib's matrices, powers and characteristic polynomial.
-/

namespace Spec
open Matrix
variable {α : Type} [CommRing α]

/-- The first `M` values of a sequence as a vector. -/
def vect (M : Nat) (f : Nat → α) : Fin M → α := fun m => f m

/-- The coefficients `a_0, …, a_{M-1}` of the characteristic polynomial `z^M + a_0 z^(M-1) + … + a_{M-1}`. -/
noncomputable def charCoefs {M : Nat} (A : Matrix (Fin M) (Fin M) α) : Nat → α := fun k => A.charpoly.coeff (M - 1 - k)

/-- The response of `h' = A h + b x`, `y = c h + d x` to an impulse: `d, cb, cAb, cA²b, …`. -/
def markov {M : Nat} (A : Matrix (Fin M) (Fin M) α) (b c : Fin M → α) (d : α) : Nat → α :=
  fun n => if n = 0 then d else c ⬝ᵥ (A ^ (n - 1) *ᵥ b)

/-- The transition matrix `A_{t-1} A_{t-2} … A_k` from time `k` to time `t` (the identity for `t ≤ k`). -/
def transition {M : Nat} (A : Nat → Matrix (Fin M) (Fin M) α) (k : Nat) : Nat → Matrix (Fin M) (Fin M) α
  | 0 => 1
  | t + 1 => if t < k then 1 else A t * transition A k t

end Spec
