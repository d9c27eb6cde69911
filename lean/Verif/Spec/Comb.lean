import Verif.Torch.Core

/-!
# Arguments of the comb filter

These definitions do not mention the modelled code.
-/

namespace Spec
open Torch Torch.Tensor

/-- A coefficient given once for all batch items (0-D) or per batch item (1-D). -/
inductive PerItem {α : Type} [Zero α] (B : Nat) : Tensor α → (Nat → α) → Prop
  | scalar (c : α) : PerItem B (t0 c) fun _ => c
  | full (g : Nat → α) : PerItem B (t1 B g) g

/-- A past of `D` samples: none (silence), one for all batch items, or one per batch item. -/
inductive Past {α : Type} [Zero α] (B D : Nat) : Option (Tensor α) → (Nat → Nat → α) → Prop
  | none : Past B D none fun _ _ => 0
  | shared (f : Nat → α) : Past B D (some (t1 D f)) fun _ => f
  | batched (f : Nat → Nat → α) : Past B D (some (t2 B D f)) f

end Spec
