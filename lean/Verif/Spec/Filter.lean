import Verif.Torch.Core

/-!
# Vocabulary for filters

Signals are functions on the integers, so that the past is just negative time.  Nothing here refers to the model.
-/

namespace Spec
open Torch Torch.Tensor Finset
variable {α : Type}

/-- The signal `x 0, x 1, …` preceded by zeros. -/
def causal [Zero α] (x : Nat → α) : Int → α := fun n => if n < 0 then 0 else x n.toNat

/-- The signal `x 0, x 1, …` with the past `z 0` (at time -1), `z 1` (at time -2), …. -/
def withPast (z x : Nat → α) : Int → α := fun n => if n < 0 then z (-1 - n).toNat else x n.toNat

/-- Coefficients: one row for all batch items, or one row per batch item.  `Rows B K X f`: tensor `X` gives batch item `b`
the row `f b 0, …, f b (K-1)`. -/
inductive Rows [Zero α] (B K : Nat) : Tensor α → (Nat → Nat → α) → Prop
  | shared (f : Nat → α) : Rows B K (t1 K f) fun _ => f
  | batched (f : Nat → Nat → α) : Rows B K (t2 B K f) f

/-- A signal with or without a batch axis.  `Sig B N X x`: tensor `X` holds the samples `x b t`. -/
inductive Sig [Zero α] (N : Nat) : Nat → Tensor α → (Nat → Nat → α) → Prop
  | flat (x : Nat → α) : Sig N 1 (t1 N x) fun _ => x
  | batched (B : Nat) (x : Nat → Nat → α) : Sig N B (t2 B N x) x

/-- The tensor of the rows `y b`, without the batch axis if `flat` is set. -/
def packed [Zero α] (flat : Bool) (B N : Nat) (y : Nat → Nat → α) : Tensor α :=
  if flat then t1 N (y 0) else t2 B N y

/-- Whether the signal, the coefficients and the initial state (if any) all come without a batch axis. -/
def allFlat [Zero α] (x b a : Tensor α) (zi : Option (Tensor α)) : Bool :=
  decide (x.rank = 1 ∧ b.rank = 1 ∧ a.rank = 1 ∧ ∀ z, zi = some z → z.rank = 1)

/-- The same for time-varying coefficients, which have a time axis in addition. -/
def allFlatTv [Zero α] (x b a : Tensor α) (zi : Option (Tensor α)) : Bool :=
  decide (x.rank = 1 ∧ b.rank = 2 ∧ a.rank = 2 ∧ ∀ z, zi = some z → z.rank = 1)

/-- A row of `K` coefficients extended by zeros. -/
def zext [Zero α] (K : Nat) (f : Nat → α) : Nat → α := fun j => if j < K then f j else 0

/-- `K` taps `b` applied to the signal `x` at time `n`: `Σ_{j<K} b_j x_{n-j}`. -/
def taps [CommRing α] (K : Nat) (b : Nat → α) (x : Int → α) (n : Int) : α := ∑ j ∈ range K, b j * x (n - j)

end Spec
