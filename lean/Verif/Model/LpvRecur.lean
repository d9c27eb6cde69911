import Verif.Torch.Core

/-!
# Model of philtorch/lpv/recur.py
-/

namespace Phil.Lpv
open Torch Torch.Tensor

variable {α : Type} [CommRing α] [StarRing α]

/-- `philtorch/lpv/recur.py:7-17`, `_scalar_recursion_loop` (`zip` stops at the shorter sequence). -/
def scalarRecursionLoop (a init x : Tensor α) : Res (Tensor α) := do
  let as ← unbind a (-1)
  let xs ← unbind x (-1)
  let results ← scanM (fun h (p : Tensor α × Tensor α) => addcmul p.2 h p.1) init (as.zip xs)
  stack results (-1)

/-- `philtorch/lpv/recur.py:20-101`, `linear_recurrence`.  `fuel` bounds the depth of the Python recursion
(line 82); running out of fuel is an error. -/
def linearRecurrenceAux (unrollFactor : Int) : Nat → Tensor α → Tensor α → Tensor α → Res (Tensor α)
  | 0, _, _, _ => .error "RecursionError"
  | fuel + 1, a, init, x => do
    check (x.rank = 2) "AssertionError: Input x must be 2D"
    check (a.rank = 1 ∨ a.rank = 2) "AssertionError: State matrix a must be 1D or 2D"
    check (¬ (a.rank = 1 ∧ a.size 0 ≠ x.size 1)) "ValueError: a must have the same length as x"
    let batchSize := x.size 0
    let N := x.size 1
    check (init.rank = 0 ∨ init.rank = 1) "AssertionError: init must be 1D or 0D"
    check (¬ (init.rank = 1 ∧ init.size 0 > 1 ∧ init.size 0 ≠ batchSize)) "ValueError: init batch size"
    let init ← (if init.rank = 0 then expand init [some 1] else pure init)
    check (¬ unrollFactor < 1) "ValueError: Unroll factor must be >= 1"
    let blockSize := unrollFactor.toNat
    if blockSize = 1 ∨ blockSize ≥ N then scalarRecursionLoop a init x
    else do
      let remainder := N % blockSize
      let x ← (if remainder ≠ 0 then padDim x (-1) 0 ((blockSize - remainder : Nat) : Int) 0 else pure x)
      let a ← (if remainder ≠ 0 then padDim a (-1) 0 ((blockSize - remainder : Nat) : Int) 0 else pure a)
      let unrolledX ← unflatten x 1 [none, some blockSize]
      let unrolledA ← unflatten a (-1) [none, some blockSize]
      let ap ← slice unrolledA (-1) (some 1) none
      let ap ← flip ap (-1)
      let ap ← cumprod ap (-1)
      let aPowers ← flip ap (-1)
      let p0 ← select aPowers (-1) 0
      let a0 ← select unrolledA (-1) 0
      let aPowered ← mul p0 a0
      let aPI ← padDim aPowers (-1) 0 ((1 : Nat) : Int) 1
      let z ← vecdot (conj unrolledX) aPI
      let rec_ ← linearRecurrenceAux unrollFactor fuel aPowered init z
      let init1 ← unsqueeze init 1
      let init1 ← expand init1 [some batchSize, some 1]
      let initials ← cat2 init1 rec_ 1
      let ua ← slice unrolledA (-1) none (some (-1))
      let ini ← slice initials 1 none (some (-1))
      let ux ← slice unrolledX (-1) none (some (-1))
      let output ← scalarRecursionLoop ua ini ux
      let fin ← slice initials 1 (some 1) none
      let fin ← unsqueeze fin (-1)
      let output ← cat2 output fin 2
      let output ← flatten output 1 2
      if remainder ≠ 0 then slice output 1 none (some (-((blockSize - remainder : Nat) : Int)))
      else pure output

/-- `philtorch/lpv/recur.py:20-101`, `linear_recurrence(a, init, x, unroll_factor=...)`. -/
def linearRecurrence (a init x : Tensor α) (unrollFactor : Int) : Res (Tensor α) :=
  linearRecurrenceAux unrollFactor (x.size 1 + 1) a init x

end Phil.Lpv
