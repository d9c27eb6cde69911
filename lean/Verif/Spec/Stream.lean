import Verif.Torch.Core

/-!
# Streaming: calling a filter chunk by chunk

These definitions do not mention the modelled code.
-/

namespace Spec
open Torch Torch.Tensor
variable {α : Type} [Zero α]

/-- Call the filters one after another, hand the final state of each call to the next as its initial state, and join the
outputs along the time axis `d`.  The result is the whole output and the last final state. -/
def stream (d : Int) : List (Option (Tensor α) → Res (Tensor α × Option (Tensor α))) → Option (Tensor α) →
    Res (Tensor α × Option (Tensor α))
  | [], _ => .error "no chunks"
  | [c], z => c z
  | c :: c' :: cs, z => do
    let r ← c z
    let r' ← stream d (c' :: cs) r.2
    let y ← cat2 r.1 r'.1 d
    return (y, r'.2)

/-- `Chunks P s cs e`: the non-empty chunks `cs` cover the times from `s` to `e` without gaps; `P s n c` says what it
means for chunk `c` to hold the `n` samples from time `s` on. -/
inductive Chunks {T : Type} (P : Nat → Nat → T → Prop) : Nat → List T → Nat → Prop
  | last {s n c} (hn : 0 < n) (h : P s n c) : Chunks P s [c] (s + n)
  | cons {s n c c' cs e} (hn : 0 < n) (h : P s n c) (hr : Chunks P (s + n) (c' :: cs) e) : Chunks P s (c :: c' :: cs) e

end Spec
