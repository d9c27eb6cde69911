import Verif.Torch.Loop

/-!
# Model of the shape functions of philtorch/__init__.py

`torch.library.register_fake` registers the functions that `torch.compile` runs instead of the ops.  They return an empty tensor;
the model returns its shape.  Simplification: strides, dtypes and devices are not modelled.
-/

namespace Phil.Fake
open Torch Torch.Tensor

variable {α : Type} [Zero α]

/-- `x.shape[k]` (as used in `philtorch/__init__.py:161-175`). -/
def dim (x : Tensor α) (k : Int) : Res Nat :=
  if -(x.rank : Int) ≤ k ∧ k < x.rank then .ok (x.size k) else .error "IndexError: tuple index out of range"

/-- The checks shared by the shape functions of the matrix recurrences: the last two sizes of `A`, its number of axes, the sizes
of the states and the batch size. `lo` is the number of axes of a shared `A`, `m` the size the code compares with, `varying`
whether `A` has a time axis (`philtorch/__init__.py:161-176`, `:181-197`, `:202-213`, `:218-230`, `:288-300`, `:306-322`). -/
def matChecks (A zi x : Tensor α) (lo m : Nat) (varying : Bool) : Res Unit := do
  let a1 ← dim A (-1)
  let a2 ← dim A (-2)
  check (a1 = a2 ∧ a2 = m) "RuntimeError: A must be square."
  check (A.rank = lo ∨ A.rank = lo + 1) "RuntimeError: number of dimensions of A"
  let z1 ← dim zi 1
  check (z1 = m) "RuntimeError: zi must have last dimension of size 2."
  let x2 ← dim x 2
  check (x2 = m) "RuntimeError: x must have last dimension of size 2."
  let x1 ← dim x 1
  (if varying then do
    let a3 ← dim A (-3)
    check (x1 = a3) "RuntimeError: x's second dimension must match A's last-3 dimension."
  else pure ())
  let x0 ← dim x 0
  let z0 ← dim zi 0
  check (x0 = z0) "RuntimeError: x and zi must have the same batch size."
  if A.rank = lo + 1 then do
    let a0 ← dim A 0
    check (a0 = x0) "RuntimeError: first dimension of A must match x's batch size."
  else pure ()

/-- `philtorch/__init__.py:159-177`, shape function of `recur2`. -/
def recur2 (A zi x : Tensor α) : Res (List Nat) := do
  matChecks A zi x 3 2 true
  return x.shape

/-- `philtorch/__init__.py:179-198`, shape function of `recurN`. -/
def recurN (A zi x : Tensor α) : Res (List Nat) := do
  let m ← dim x 2
  matChecks A zi x 3 m true
  return x.shape

/-- `philtorch/__init__.py:200-214`, shape function of `lti_recur2`. -/
def ltiRecur2 (A zi x : Tensor α) : Res (List Nat) := do
  matChecks A zi x 2 2 false
  return x.shape

/-- `philtorch/__init__.py:216-231`, shape function of `lti_recurN`. -/
def ltiRecurN (A zi x : Tensor α) : Res (List Nat) := do
  let m ← dim x 2
  matChecks A zi x 2 m false
  return x.shape

/-- `philtorch/__init__.py:233-245`, shape function of `lti_recur`. -/
def ltiRecur (A zi x : Tensor α) : Res (List Nat) := do
  check (A.rank ≤ 1) "RuntimeError: A must be 1D or scalar."
  let z0 ← dim zi 0
  let x0 ← dim x 0
  check (z0 = x0) "RuntimeError: x and zi must have the same batch size."
  (if A.rank = 1 then do
    let a0 ← dim A 0
    (if a0 ≠ 1 then check (a0 = x0) "RuntimeError: If A is 1D, its length must match x's batch size." else pure ())
  else pure ())
  return x.shape

/-- `x.new_empty(x.shape[0], x.shape[1] + 1, x.shape[2])[:, 1:]` (`philtorch/__init__.py:302`, `:324`). -/
def tail (x : Tensor α) : Res (List Nat) := do
  let y ← slice (zeros [x.size 0, x.size 1 + 1, x.size 2] : Tensor α) 1 (some 1) none
  return y.shape

/-- `philtorch/__init__.py:286-302`, shape function of `hl_lti_recurN`. -/
def hlLtiRecurN (A zi x : Tensor α) : Res (List Nat) := do
  let m ← dim x 2
  matChecks A zi x 2 m false
  tail x

/-- `philtorch/__init__.py:304-325`, shape function of `hl_recurN`. -/
def hlRecurN (A zi x : Tensor α) : Res (List Nat) := do
  let m ← dim x 2
  matChecks A zi x 3 m true
  tail x

end Phil.Fake
