import Mathlib.Algebra.BigOperators.Intervals
import Mathlib.Algebra.Field.Defs

/-!
# Partial fractions

These definitions do not mention the modelled code.
-/

namespace Spec
open Finset
variable {α : Type} [Field α] [DecidableEq α]

/-- The value at `z` of the partial fractions with residues `r` and poles `p`: a pole listed several times stands for the powers
`1, 2, …` of its linear factor, in this order. -/
def pfe (r p : List α) (z : α) : α :=
  ∑ k ∈ range p.length, r.getD k 0 / (z - p.getD k 0) ^ (p.take (k + 1)).count (p.getD k 0)

/-- The same in the variable `w = 1/z`, with linear factors `1 - p w`. -/
def pfez (r p : List α) (w : α) : α :=
  ∑ k ∈ range p.length, r.getD k 0 / (1 - p.getD k 0 * w) ^ (p.take (k + 1)).count (p.getD k 0)

omit [DecidableEq α] in
/-- The value at `z` of the partial fractions with residues `r`, poles `p` and powers `n`. -/
def pfePow (r p : List α) (n : List Nat) (z : α) : α := ((r.zip (p.zip n)).map fun x => x.1 / (z - x.2.1) ^ x.2.2).sum

end Spec
