import Verif.Torch.Core

/-!
# Change of numbers

`cast φ x` is the tensor with the entries `φ (x i)`: a change of dtype, or any other map of numbers.
-/

namespace Torch.Tensor
variable {α β : Type} [CommRing α] [CommRing β]

/-- The tensor with entries `φ (x i)`. -/
def cast (φ : α →+* β) (x : Tensor α) : Tensor β where
  shape := x.shape
  get := fun l => φ (x.get l)
  canon := by intro l h; rw [x.canon l h, map_zero]

/-- A signal and an optional final state, converted. -/
def castP (φ : α →+* β) (r : Tensor α × Option (Tensor α)) : Tensor β × Option (Tensor β) := (cast φ r.1, r.2.map (cast φ))

/-- The shapes of a signal and of an optional final state. -/
def shapes (r : Tensor α × Option (Tensor α)) : List Nat × Option (List Nat) := (r.1.shape, r.2.map shape)

/-- The shapes of three optional gradients. -/
def gradShapes (r : Option (Tensor α) × Option (Tensor α) × Option (Tensor α)) : Option (List Nat) × Option (List Nat) × Option (List Nat) :=
  (r.1.map shape, r.2.1.map shape, r.2.2.map shape)

/-- Three optional gradients, converted. -/
def castG (φ : α →+* β) (r : Option (Tensor α) × Option (Tensor α) × Option (Tensor α)) :
    Option (Tensor β) × Option (Tensor β) × Option (Tensor β) :=
  (r.1.map (cast φ), r.2.1.map (cast φ), r.2.2.map (cast φ))

end Torch.Tensor

namespace Spec
open Torch Torch.Tensor
variable {α β : Type} [CommRing α] [CommRing β]

/-- `op'` on converted arguments is `op`, converted. -/
def OpNatural (φ : α →+* β) (op : Tensor α → Tensor α → Tensor α → Res (Tensor α)) (op' : Tensor β → Tensor β → Tensor β → Res (Tensor β)) :
    Prop :=
  ∀ x y z, op' (cast φ x) (cast φ y) (cast φ z) = (op x y z).map (cast φ)

/-- The external all-pole filter on converted arguments gives the converted result. -/
def LpcNatural (φ : α →+* β) (lpc : Tensor α → Tensor α → Option (Tensor α) → Res (Tensor α × Tensor α))
    (lpc' : Tensor β → Tensor β → Option (Tensor β) → Res (Tensor β × Tensor β)) : Prop :=
  ∀ x a zi, lpc' (cast φ x) (cast φ a) (zi.map (cast φ)) = (lpc x a zi).map (Prod.map (cast φ) (cast φ))

end Spec

namespace Spec
open Torch Torch.Tensor
variable {α β : Type} [CommRing α] [CommRing β]

/-- The shape of the result of `op`, or the exception, is decided by the shapes of the arguments (the same for `op` and `op'`). -/
def OpShape (op : Tensor α → Tensor α → Tensor α → Res (Tensor α)) (op' : Tensor β → Tensor β → Tensor β → Res (Tensor β)) : Prop :=
  ∀ x y z x' y' z', x.shape = x'.shape → y.shape = y'.shape → z.shape = z'.shape → (op x y z).map shape = (op' x' y' z').map shape

/-- The same for the external all-pole filter. -/
def LpcShape (lpc : Tensor α → Tensor α → Option (Tensor α) → Res (Tensor α × Tensor α))
    (lpc' : Tensor β → Tensor β → Option (Tensor β) → Res (Tensor β × Tensor β)) : Prop :=
  ∀ x a zi x' a' zi', x.shape = x'.shape → a.shape = a'.shape → zi.map shape = zi'.map shape →
    (lpc x a zi).map (Prod.map shape shape) = (lpc' x' a' zi').map (Prod.map shape shape)

end Spec
