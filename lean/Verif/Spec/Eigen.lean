import Verif.Torch.Core
import Verif.Spec.Layout

/-!
# Layouts of an eigen-decomposition

These definitions do not mention the modelled code.
-/

namespace Spec
open Torch Torch.Tensor
variable {α : Type} [Zero α]

/-- Eigenvalues `L`, eigenvectors `V` (columns) and the inverse `W` of `V`: one decomposition for all batch items, or one per
batch item.  `Eigen B M L V W l v w`: batch item `b` has eigenvalues `l b` and matrices `v b`, `w b`. -/
inductive Eigen (B M : Nat) : Tensor α → Tensor α → Tensor α → (Nat → Nat → α) → (Nat → Nat → Nat → α) → (Nat → Nat → Nat → α) → Prop
  | shared (l : Nat → α) (v w : Nat → Nat → α) :
      Eigen B M (t1 M l) (t2 M M v) (t2 M M w) (fun _ => l) (fun _ => v) (fun _ => w)
  | batched (l : Nat → Nat → α) (v w : Nat → Nat → Nat → α) : Eigen B M (t2 B M l) (t3 B M M v) (t3 B M M w) l v w

/-- State matrix `A` and its eigenvalues `L`, for all batch items or per batch item. -/
inductive Spectrum (B M : Nat) : Tensor α → Tensor α → (Nat → Nat → Nat → α) → (Nat → Nat → α) → Prop
  | shared (A : Nat → Nat → α) (l : Nat → α) : Spectrum B M (t2 M M A) (t1 M l) (fun _ => A) (fun _ => l)
  | batched (A : Nat → Nat → Nat → α) (l : Nat → Nat → α) : Spectrum B M (t3 B M M A) (t2 B M l) A l

/-- `A = V diag(L) W` and `V W = 1`, for matrices of size `M`. -/
def Diagonalises {α : Type} [CommRing α] (M : Nat) (A : Nat → Nat → α) (l : Nat → α) (v w : Nat → Nat → α) : Prop :=
  (∀ i j, i < M → j < M → A i j = ∑ m ∈ Finset.range M, v i m * l m * w m j) ∧
    ∀ i j, i < M → j < M → ∑ m ∈ Finset.range M, v i m * w m j = if i = j then 1 else 0

/-- `v` is an eigenvector of `A` for the eigenvalue `c`. -/
def Eigenvector {α : Type} [CommRing α] (M : Nat) (A : Nat → Nat → α) (c : α) (v : Nat → α) : Prop :=
  (∃ i, i < M ∧ v i ≠ 0) ∧ ∀ i, i < M → ∑ j ∈ Finset.range M, A i j * v j = c * v i

/-- `ev` (standing for `torch.linalg.eigvals`) answers the matrices `A b` with a list of exactly their eigenvalues. -/
def ListsEigenvalues {α : Type} [CommRing α] (ev : Tensor α → Res (Tensor α)) (B M : Nat) (Av : Nat → Nat → Nat → α) : Prop :=
  ∀ A, MatVals B M M A Av → ∃ L l, ev A = .ok L ∧ Spectrum B M A L Av l ∧
    ∀ b c, (∃ m, m < M ∧ l b m = c) ↔ ∃ v, Eigenvector M (Av b) c v

/-- `p 0, …, p (P-1)` are distinct roots of `z^P + a 0 z^(P-1) + … + a (P-1)`. -/
def DistinctPoles {α : Type} [CommRing α] (P : Nat) (a p : Nat → α) : Prop :=
  (∀ m, m < P → p m ^ P + ∑ k ∈ Finset.range P, a k * p m ^ (P - 1 - k) = 0) ∧ ∀ m n, m < P → n < P → p m = p n → m = n

/-- The numerator which, over the denominator `1 + c 0 / z + …`, equals `b 0 + (b - b 0 (1 + a 0 / z + …)) / (1 + c 0 / z + …)`. -/
def overrideNum {α : Type} [CommRing α] (b a c : Nat → α) (k : Nat) : α := if k = 0 then b 0 else b k + b 0 * (c (k - 1) - a (k - 1))

end Spec
