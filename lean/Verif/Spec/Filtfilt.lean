import Verif.Torch.Core

/-!
# Extension of a signal at both ends

These definitions do not mention the modelled code.
-/

namespace Spec
variable {α : Type}

/-- Repeat the first and the last of `N` samples `e` times. -/
def extendConst (N e : Nat) (x : Nat → α) (t : Nat) : α := x (min (t - e) (N - 1))

/-- Mirror `N` samples at the first and at the last of them. -/
def extendMirror (N e : Nat) (x : Nat → α) (t : Nat) : α :=
  if t < e then x (e - t) else if t < e + N then x (t - e) else x (N - 2 - (t - e - N))

/-- Surround `N` samples by `e` zeros on either side. -/
def extendZero [Zero α] (N e : Nat) (x : Nat → α) (t : Nat) : α := if e ≤ t ∧ t < e + N then x (t - e) else 0

/-- Repeat `N` samples periodically, `e` of them on either side. -/
def extendCyclic (N e : Nat) (x : Nat → α) (t : Nat) : α :=
  if t < e then x (N - e + t) else if t < e + N then x (t - e) else x (t - e - N)

end Spec
