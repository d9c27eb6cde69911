import Verif.Torch.Loop
import Verif.Spec.Recur
import Verif.Spec.Layout

/-!
# What the recurrence ops are supposed to compute

`torch.ops.philtorch.lti_recur`, `lti_recur2`, `lti_recurN`, `recur2`, `recurN` (and the Helion and ParaRNN
replacements) all have the calling convention `op(A, zi, x)`.  These predicates say, in terms of the mathematical
recurrences only, that a function with that calling convention computes the recurrence.
-/

namespace Spec
open Torch Torch.Tensor

variable {α : Type} [CommRing α]

/-- The calling convention of the ops. -/
abbrev Op (α : Type) [CommRing α] := Tensor α → Tensor α → Tensor α → Res (Tensor α)

/-- `op(a, zi, x)` computes `h[t] = a h[t-1] + x[t]` for every batch size and length; `a` has shape `()`, `(1,)` or
`(B,)`. -/
def IsScalarOp (op : Op α) : Prop :=
  ∀ (B N : Nat) (A : Tensor α) (a : Nat → α) (zi : Nat → α) (x : Nat → Nat → α), BatchVals B A a →
    op A (t1 B zi) (t2 B N x) = .ok (t2 B N fun b n => scalarRec (fun _ => a b) (zi b) (x b) (n + 1))

/-- `op(A, zi, x)` computes `h[t] = A h[t-1] + x[t]` for states of dimension `M`, every batch size and length; `A` is
shared, or one matrix per batch item. -/
def IsMatrixOp (M : Nat) (op : Op α) : Prop :=
  ∀ (B N : Nat) (A : Tensor α) (a : Nat → Nat → Nat → α) (zi : Nat → Nat → α) (x : Nat → Nat → Nat → α),
    MatVals B M M A a →
    op A (t2 B M zi) (t3 B N M x) =
      .ok (t3 B N M fun b n i => vecRec M (fun _ => a b) (zi b) (x b) (n + 1) i)

/-- `op(A, zi, x)` computes `h[t] = A[t] h[t-1] + x[t]` for states of dimension `M`, every batch size and length; the
sequence `A` is shared, or one sequence per batch item. -/
def IsVaryingOp (M : Nat) (op : Op α) : Prop :=
  ∀ (B N : Nat) (A : Tensor α) (a : Nat → Nat → Nat → Nat → α) (zi : Nat → Nat → α) (x : Nat → Nat → Nat → α),
    MatSeq B N M M A a →
    op A (t2 B M zi) (t3 B N M x) = .ok (t3 B N M fun b n i => vecRec M (a b) (zi b) (x b) (n + 1) i)

end Spec
