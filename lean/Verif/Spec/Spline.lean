import Mathlib.Algebra.Order.Field.Basic
import Mathlib.Algebra.BigOperators.Group.Finset.Basic
import Mathlib.Data.Nat.Choose.Basic
import Mathlib.Order.Interval.Finset.Nat
import Mathlib.Data.Int.Interval

/-! # Cubic splines -/

namespace Spec
open Finset

section
variable {α : Type} [Field α]

/-- A sequence `c[0], …, c[L-1]` continued to all integers between `-(L-1)` and `2L-2`.  Without `half` the ends are mirrored about
the samples (`c[-k] = c[k]`, PyTorch's reflect padding), with `half` about the points half a sample outside (`c[-1-k] = c[k]`, SciPy's
convention). -/
def mirror (half : Bool) (L : Nat) (c : Nat → α) (k : Int) : α :=
  if 0 ≤ k ∧ k < L then c k.toNat
  else if half then (if k < 0 then c (-1 - k).toNat else c (2 * L - 1 - k).toNat)
  else (if k < 0 then c (-k).toNat else c (2 * L - 2 - k).toNat)

/-- The value at the integer `n` of the cubic spline with coefficients `c`: the cubic B-spline is 4/6 at 0 and 1/6 at ±1. -/
def splineAt (c : Int → α) (n : Int) : α := (c (n - 1) + 4 * c n + c (n + 1)) / 6

end

section
variable {α : Type} [Field α] [LinearOrder α]

/-- The truncated cube. -/
def cubePos (t : α) : α := if 0 < t then t ^ 3 else 0

/-- The centred cubic B-spline: the fourth difference of the truncated cube, divided by 3!. -/
def bspline3 (t : α) : α := (∑ k ∈ range 5, (-1) ^ k * (Nat.choose 4 k : α) * cubePos (t + 2 - k)) / 6

end
end Spec
