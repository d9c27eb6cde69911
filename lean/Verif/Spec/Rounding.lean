import Mathlib.Analysis.Normed.Field.Basic
import Mathlib.Algebra.Order.Round
import Mathlib.Data.Int.Log
import Verif.Spec.Recur
import Verif.Spec.Ops

/-!
# Rounded arithmetic

The standard model of floating point without overflow and underflow: the sum and the product of two numbers are the exact results
with a relative error of at most `ε`.  Numbers are real or complex (any normed field); for complex numbers the error is measured by
the absolute value.
-/

namespace Spec

/-- An arithmetic with relative error at most `ε`. -/
structure Arith (K : Type) [NormedField K] (ε : ℝ) where
  add : K → K → K
  mul : K → K → K
  add_err : ∀ x y, ‖add x y - (x + y)‖ ≤ ε * ‖x + y‖
  mul_err : ∀ x y, ‖mul x y - x * y‖ ≤ ε * ‖x * y‖

/-- The numbers of an arithmetic; `+` and `*` round. -/
structure Fl {K : Type} [NormedField K] {ε : ℝ} (F : Arith K ε) where
  val : K

namespace Fl
variable {K : Type} [NormedField K] {ε : ℝ} {F : Arith K ε}

instance : Zero (Fl F) := ⟨⟨0⟩⟩
instance : Add (Fl F) := ⟨fun x y => ⟨F.add x.val y.val⟩⟩
instance : Mul (Fl F) := ⟨fun x y => ⟨F.mul x.val y.val⟩⟩

end Fl

section
open Torch Torch.Tensor
variable {K : Type} [NormedField K] {ε : ℝ} {F : Arith K ε}

/-- The computed values differ from the recurrence `h (t+1) = a h t + x t` in exact arithmetic by at most `(1 + ε)^(k (t+1)) - 1`
times the recurrence of the absolute values. -/
def ScalarAccuracy (k : Nat) (op : Tensor (Fl F) → Tensor (Fl F) → Tensor (Fl F) → Res (Tensor (Fl F))) : Prop :=
  ∀ ⦃B N : Nat⦄ ⦃A : Tensor (Fl F)⦄ ⦃a : Nat → Fl F⦄ (zi : Nat → Fl F) (x : Nat → Nat → Fl F), BatchVals B A a →
    ∃ y : Nat → Nat → Fl F, op A (t1 B zi) (t2 B N x) = .ok (t2 B N y) ∧ ∀ b < B, ∀ n < N,
      ‖(y b n).val - scalarRec (fun _ => (a b).val) (zi b).val (fun t => (x b t).val) (n + 1)‖ ≤
        ((1 + ε) ^ (k * (n + 1)) - 1) * scalarRec (fun _ => ‖(a b).val‖) ‖(zi b).val‖ (fun t => ‖(x b t).val‖) (n + 1)

/-- The same for `h (t+1) = A h t + x t` with a constant matrix of size `M`. -/
def MatrixAccuracy (M k : Nat) (op : Tensor (Fl F) → Tensor (Fl F) → Tensor (Fl F) → Res (Tensor (Fl F))) : Prop :=
  ∀ ⦃B N : Nat⦄ ⦃A : Tensor (Fl F)⦄ ⦃a : Nat → Nat → Nat → Fl F⦄ (zi : Nat → Nat → Fl F) (x : Nat → Nat → Nat → Fl F),
    MatVals B M M A a →
    ∃ y : Nat → Nat → Nat → Fl F, op A (t2 B M zi) (t3 B N M x) = .ok (t3 B N M y) ∧ ∀ b < B, ∀ n < N, ∀ i < M,
      ‖(y b n i).val -
          vecRec M (fun _ i j => (a b i j).val) (fun i => (zi b i).val) (fun t i => (x b t i).val) (n + 1) i‖ ≤
        ((1 + ε) ^ (k * (n + 1)) - 1) *
          vecRec M (fun _ i j => ‖(a b i j).val‖) (fun i => ‖(zi b i).val‖) (fun t i => ‖(x b t i).val‖) (n + 1) i

/-- The same for a matrix that changes with time. -/
def VaryingAccuracy (M k : Nat) (op : Tensor (Fl F) → Tensor (Fl F) → Tensor (Fl F) → Res (Tensor (Fl F))) : Prop :=
  ∀ ⦃B N : Nat⦄ ⦃A : Tensor (Fl F)⦄ ⦃a : Nat → Nat → Nat → Nat → Fl F⦄ (zi : Nat → Nat → Fl F)
    (x : Nat → Nat → Nat → Fl F), MatSeq B N M M A a →
    ∃ y : Nat → Nat → Nat → Fl F, op A (t2 B M zi) (t3 B N M x) = .ok (t3 B N M y) ∧ ∀ b < B, ∀ n < N, ∀ i < M,
      ‖(y b n i).val -
          vecRec M (fun t i j => (a b t i j).val) (fun i => (zi b i).val) (fun t i => (x b t i).val) (n + 1) i‖ ≤
        ((1 + ε) ^ (k * (n + 1)) - 1) *
          vecRec M (fun t i j => ‖(a b t i j).val‖) (fun i => ‖(zi b i).val‖) (fun t i => ‖(x b t i).val‖) (n + 1) i

end

/-- Round to the nearest number with `p + 1` binary digits (any exponent). -/
noncomputable def binRound (p : Nat) (x : ℝ) : ℝ :=
  round (x / (2 : ℝ) ^ (Int.log 2 |x| - p)) * (2 : ℝ) ^ (Int.log 2 |x| - p)

end Spec
