import Verif.Spec.StateSpace

/-!
# Linearity and causality of programs on tensors
-/

namespace Spec
open Torch Torch.Tensor Finset
variable {α : Type} [CommRing α]

/-- `c * X + d * Y` for tensors of the same shape. -/
def lincomb (c d : α) (X Y : Tensor α) : Tensor α := ofFn X.shape fun l => c * X.get l + d * Y.get l

/-- The same for optional tensors (both present or both absent). -/
def lincombOpt (c d : α) : Option (Tensor α) → Option (Tensor α) → Option (Tensor α)
  | some X, some Y => some (lincomb c d X Y)
  | _, _ => none

/-- A program with a signal and an optional state as input and as output. -/
abbrev Filter (α : Type) [Zero α] := Tensor α → Option (Tensor α) → Res (Tensor α × Option (Tensor α))

/-- A function that takes a signal and an initial state (required) and returns a signal. -/
def noState (g : Tensor α → Tensor α → Res (Tensor α)) : Filter α := fun x zi => do
  let y ← g (zi.getD (t0 0)) x
  return (y, none)

/-- `f` is linear on signals of shape `sx` and states of shape `sz` jointly: it succeeds on them, and on a linear
combination of two inputs returns the same linear combination of the two results. -/
def LinearOn (f : Filter α) (sx : List Nat) (sz : Option (List Nat)) : Prop :=
  ∀ (c d : α) (x₁ x₂ : Tensor α) (z₁ z₂ : Option (Tensor α)), x₁.shape = sx → x₂.shape = sx → z₁.map shape = sz →
    z₂.map shape = sz → ∃ y₁ y₂ f₁ f₂, f x₁ z₁ = .ok (y₁, f₁) ∧ f x₂ z₂ = .ok (y₂, f₂) ∧ y₁.shape = y₂.shape ∧
      f₁.map shape = f₂.map shape ∧
      f (lincomb c d x₁ x₂) (lincombOpt c d z₁ z₂) = .ok (lincomb c d y₁ y₂, lincombOpt c d f₁ f₂)

/-- The time axis of a signal: after the batch axis, if there is one. -/
def timeAxis (s : List Nat) : Nat := if s.length = 1 then 0 else 1

/-- Two signals agree up to time `T` (inclusive). -/
def AgreeTo (T : Nat) (X Y : Tensor α) : Prop :=
  X.shape = Y.shape ∧ ∀ l, l.getD (timeAxis X.shape) 0 ≤ T → X.get l = Y.get l

/-- `f` is causal on signals of shape `sx` and states of shape `sz`: it succeeds on them, and if two signals agree up to
time `T` then so do the outputs. -/
def CausalOn (f : Filter α) (sx : List Nat) (sz : Option (List Nat)) : Prop :=
  ∀ (T : Nat) (x₁ x₂ : Tensor α) (z : Option (Tensor α)), x₁.shape = sx → z.map shape = sz → AgreeTo T x₁ x₂ →
    ∃ y₁ y₂ f₁ f₂, f x₁ z = .ok (y₁, f₁) ∧ f x₂ z = .ok (y₂, f₂) ∧ AgreeTo T y₁ y₂

end Spec
