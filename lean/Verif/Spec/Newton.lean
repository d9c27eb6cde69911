import Verif.Torch.Loop
import Verif.Spec.Recur

/-! # The sequential iteration that `newton_solve` is meant to compute -/

namespace Spec
open Torch Torch.Tensor

variable {α : Type} [CommRing α]

/-- `y[t] = f(y[t-1], x[t])` with `y[-1] = init`: the entries `y[0], y[1], …`. -/
def iterate (f : (Nat → α) → (Nat → α) → Nat → α) (init : Nat → α) (x : Nat → Nat → α) : Nat → Nat → α
  | 0 => f init (x 0)
  | t + 1 => f (iterate f init x t) (x (t + 1))

/-- `func` applies `f` at every time, to states with `D` and inputs with `N` components. -/
def IsPointwise (D N : Nat) (func : Tensor α → Tensor α → Res (Tensor α)) (f : (Nat → α) → (Nat → α) → Nat → α) : Prop :=
  ∀ (B K : Nat) (y x : Nat → Nat → Nat → α),
    func (t3 B K D y) (t3 B K N x) = .ok (t3 B K D fun b t => f (y b t) (x b t))

/-- The same for functions whose values are matrices, such as the Jacobian. -/
def IsPointwiseMat (D N : Nat) (func : Tensor α → Tensor α → Res (Tensor α)) (J : (Nat → α) → (Nat → α) → Nat → Nat → α) : Prop :=
  ∀ (B K : Nat) (y x : Nat → Nat → Nat → α),
    func (t3 B K D y) (t3 B K N x) = .ok (t4 B K D D fun b t => J (y b t) (x b t))

end Spec
