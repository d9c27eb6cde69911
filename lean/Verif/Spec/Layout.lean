import Verif.Torch.Core

/-!
# Accepted tensor layouts

The library accepts several shapes for the same mathematical object.  These relations say which values an argument
tensor stands for; they do not mention the modelled code.
-/

namespace Spec
open Torch Torch.Tensor
variable {α : Type} [Zero α]

/-- A matrix with `R` rows and `Q` columns: one for all batch items, or one per batch item.  `MatVals B R Q X f` says
that tensor `X` gives batch item `b` the matrix `f b`. -/
inductive MatVals (B R Q : Nat) : Tensor α → (Nat → Nat → Nat → α) → Prop
  | shared (f : Nat → Nat → α) : MatVals B R Q (t2 R Q f) fun _ => f
  | batched (f : Nat → Nat → Nat → α) : MatVals B R Q (t3 B R Q f) f

/-- An input of the state recursion: one value per state, or a single value that is added to the first state.
`Drive B N M X f`: at time `t` the tensor `X` adds `f b t k` to state `k` of batch item `b`. -/
inductive Drive (B N M : Nat) : Tensor α → (Nat → Nat → Nat → α) → Prop
  | full (x : Nat → Nat → Nat → α) : Drive B N M (t3 B N M x) x
  | scalar (x : Nat → Nat → α) : Drive B N M (t2 B N x) fun b t k => if k = 0 then x b t else 0

/-- A sequence of `N` matrices: one for all batch items, or one per batch item.  `MatSeq B N R Q X f` says that tensor
`X` gives batch item `b` the matrix `f b t` at time `t`. -/
inductive MatSeq (B N R Q : Nat) : Tensor α → (Nat → Nat → Nat → Nat → α) → Prop
  | shared (f : Nat → Nat → Nat → α) : MatSeq B N R Q (t3 N R Q f) fun _ => f
  | batched (f : Nat → Nat → Nat → Nat → α) : MatSeq B N R Q (t4 B N R Q f) f

end Spec
