import Verif.Spec.StateSpace

/-!
# Batch items of a result
-/

namespace Spec
open Torch Torch.Tensor
variable {α : Type} [Zero α]

/-- Shape of one batch item of `y`, where an item has `r` axes: `y` itself if it has no batch axis. -/
def itemShape (r : Nat) (y : Tensor α) : List Nat := if y.rank = r then y.shape else y.shape.tail

/-- Entry `l` of batch item `i` of `y`, where an item has `r` axes: of `y` itself if it has no batch axis. -/
def itemGet (r i : Nat) (y : Tensor α) (l : List Nat) : α := if y.rank = r then y.get l else y.get (i :: l)

/-- Item `i` of `y` equals item `i'` of `y'`. -/
def SameItem (r i i' : Nat) (y y' : Tensor α) : Prop :=
  itemShape r y = itemShape r y' ∧ ∀ l, itemGet r i y l = itemGet r i' y' l

/-- Two runs succeed and item `i` of the output of the first equals item `i'` of the output of the second; the same for the
final states if both return one. -/
def SameItemResult (r i i' : Nat) (p p' : Res (Tensor α × Option (Tensor α))) : Prop :=
  ∃ y y' f f', p = .ok (y, f) ∧ p' = .ok (y', f') ∧ SameItem r i i' y y' ∧
    ∀ g g', f = some g → f' = some g' → SameItem 1 i i' g g'

/-- Number of axes of one item of `signal k B N y`. -/
def itemRank : Option Nat → Nat
  | none => 1
  | some _ => 2

end Spec
