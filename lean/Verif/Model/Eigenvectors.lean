import Verif.Torch.SolveMat

/-!
# Model of philtorch/mat.py: `find_eigenvectors`

The scalars are the reals or the complex numbers (`RCLike`), because of the square root in the norm.
-/

namespace Phil
open Torch Torch.Tensor

variable {α : Type} [RCLike α]

/-- `philtorch/mat.py:27-30`: the first column `B` and the other columns `W` of `A - l I`, for every eigenvalue `l`. -/
noncomputable def shiftedColumns (A L : Tensor α) : Res (Tensor α × Tensor α) := do
  let A1 ← unsqueeze A (-3)
  let L1 ← unsqueeze L (-1)
  let L1 ← unsqueeze L1 (-1)
  let LI ← mul L1 (eye (A.size (-1)))
  let W ← sub A1 LI
  split2 W 1 (A.size (-1) - 1) (-1)

/-- `philtorch/mat.py:32-37`: the eigenvectors as rows, first component one, not normalised. -/
noncomputable def eigenRows (A B W : Tensor α) : Res (Tensor α) := do
  let WT ← mT W
  let WtW ← matmul (conj WT) W
  let WtB ← matmul (conj WT) (neg B)
  let X ← linalgSolveMat WtW WtB
  let X ← reshape X (A.shape.take (A.rank - 2) ++ [A.size (-1), A.size (-1) - 1])
  cat2 (full (X.shape.dropLast ++ [1]) 1) X (-1)

/-- `philtorch/mat.py:7-39`, `find_eigenvectors`. -/
noncomputable def findEigenvectors (A L : Tensor α) : Res (Tensor α) := do
  check (2 ≤ A.rank) "AssertionError: Matrix A must be at least 2D."
  check (1 ≤ L.rank) "AssertionError: Eigenvalues must be at least 1D."
  check (A.size (-2) = A.size (-1)) "AssertionError: Matrix A must be square."
  check (A.size (-1) = L.size (-1)) "AssertionError: Eigenvalues must match the size of A."
  let BW ← shiftedColumns A L
  let X ← eigenRows A BW.1 BW.2
  let s ← vectorNorm X
  let X ← div X s
  mT X

end Phil
