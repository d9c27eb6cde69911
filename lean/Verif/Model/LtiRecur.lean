import Verif.Torch.Core

/-!
# Model of philtorch/lti/recur.py (pure PyTorch part)
-/

namespace Phil.Lti
open Torch Torch.Tensor

variable {α : Type} [CommRing α] [StarRing α]

/-- `philtorch/lti/recur.py:81-91`, `_scalar_recursion_loop`. -/
def scalarRecursionLoop (a init x : Tensor α) : Res (Tensor α) := do
  let xs ← unbind x 1
  let results ← scanM (fun h xn => do
    let ah ← mul a h
    add ah xn) init xs
  stack results 1

/-- `philtorch/lti/recur.py:94-192`, `linear_recurrence`.  `fuel` bounds the depth of the Python recursion
(line 163); running out of fuel is an error. -/
def linearRecurrenceAux (unrollFactor : Int) : Nat → Tensor α → Tensor α → Tensor α → Res (Tensor α)
  | 0, _, _, _ => .error "RecursionError"
  | fuel + 1, a, init, x => do
    check (x.rank = 2) "AssertionError: Input x must be 2D"
    check (a.rank = 0 ∨ a.rank = 1) "AssertionError: State matrix a must be 1D or 0D"
    check (¬ (a.rank = 1 ∧ a.size 0 > 1 ∧ a.size 0 ≠ x.size 0)) "ValueError: a batch size"
    let a ← (if a.rank = 0 then expand a [some 1] else pure a)
    let batchSize := x.size 0
    let N := x.size 1
    check (init.rank = 0 ∨ init.rank = 1) "AssertionError: init must be 1D or 0D"
    check (¬ (init.rank = 1 ∧ init.size 0 > 1 ∧ init.size 0 ≠ batchSize)) "ValueError: init batch size"
    let init ← (if init.rank = 0 then expand init [some 1] else pure init)
    check (¬ unrollFactor < 1) "ValueError: Unroll factor must be >= 1"
    let blockSize := unrollFactor.toNat
    if blockSize = 1 ∨ blockSize ≥ N then scalarRecursionLoop a init x
    else do
      let remainder := N % blockSize
      let x ← (if remainder ≠ 0 then padDim x 1 0 ((blockSize - remainder : Nat) : Int) 0 else pure x)
      let unrolledX ← unflatten x 1 [none, some blockSize]
      let aRep ← (if a.numel = 1 then expand a [some blockSize] else do
        let a' ← unsqueeze a 1
        expand a' [none, some blockSize])
      let aPowers ← cumprod aRep (-1)
      let aPowered ← select aPowers (-1) (-1)
      let aPI ← slice aPowers (-1) none (some (-1))
      let aPI ← flip aPI (-1)
      let aPI ← padDim aPI (-1) 0 ((1 : Nat) : Int) 1
      let z ← (if aPI.rank = 1 then matmul unrolledX aPI else do
        let aPI' ← unsqueeze aPI 1
        vecdot (conj unrolledX) aPI')
      let rec_ ← linearRecurrenceAux unrollFactor fuel aPowered init z
      let init1 ← unsqueeze init 1
      let init1 ← expand init1 [some batchSize, some 1]
      let initials ← cat2 init1 rec_ 1
      let ini ← slice initials 1 none (some (-1))
      let ini ← unsqueeze ini (-1)
      let ux ← slice unrolledX (-1) none (some (-1))
      let augX ← cat2 ini ux 2
      let augA ← padDim aPI (-1) 0 ((blockSize - 2 : Nat) : Int) 0
      let augA ← unfold augA (-1) blockSize
      let augA ← flip augA (-2)
      let augAT ← mT augA
      let output ← matmul augX augAT
      let fin ← slice initials 1 (some 1) none
      let fin ← unsqueeze fin (-1)
      let output ← cat2 output fin 2
      let output ← flatten output 1 2
      if remainder ≠ 0 then slice output 1 none (some (-((blockSize - remainder : Nat) : Int)))
      else pure output

/-- `philtorch/lti/recur.py:94-192`, `linear_recurrence(a, init, x, unroll_factor=...)`. -/
def linearRecurrence (a init x : Tensor α) (unrollFactor : Int) : Res (Tensor α) :=
  linearRecurrenceAux unrollFactor (x.size 1 + 1) a init x

end Phil.Lti
