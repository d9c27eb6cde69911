import Verif.Model.LtiSsm

/-!
# Model of philtorch/lpv/ssm.py: the state recursion
-/

namespace Phil.Lpv
open Torch Torch.Tensor Phil.Mat
open Phil.Lti (firstComponent pick)

variable {α : Type} [CommRing α]

/-- `philtorch/lpv/ssm.py:118-164`, `_recursion_loop` (`zip` stops at the shorter sequence). -/
def recursionLoop (A zi x : Tensor α) (out : Option Int) : Res (Tensor α) := do
  check (x.size 1 = A.size (-3)) "AssertionError: State matrix A must have the same time dimension as x"
  let AT ← mT A
  let x ← (if x.rank = 2 then firstComponent x (A.size (-1)) else pure x)
  if A.rank = 3 then
    let xs ← unbind x 1
    let As ← unbind AT 0
    let hs ← scanM (fun h (p : Tensor α × Tensor α) => addmm p.1 h p.2) zi (xs.zip As)
    let rs ← hs.mapM (pick out 1)
    stack rs 1
  else
    let h ← unsqueeze zi 1
    let xs ← unbind x 1
    let As ← unbind AT 1
    let hs ← scanM (fun h (p : Tensor α × Tensor α) => do let x1 ← unsqueeze p.1 1; baddbmm x1 h p.2) h (xs.zip As)
    let rs ← hs.mapM (pick out 2)
    cat rs 1

/-- `philtorch/lpv/ssm.py:287`, `A_cums`. -/
def ssrCums (uA : Tensor α) : Res (Tensor α) := do
  let a1 ← slice uA (-3) (some 1) none
  let a1 ← flip a1 (-3)
  let c ← matricesCumdot a1
  flip c (-3)

/-- `philtorch/lpv/ssm.py:288`, `A_last_cum`. -/
def ssrLastCum (cums uA : Tensor α) : Res (Tensor α) := do
  let c0 ← select cums (-3) 0
  let a0 ← select uA (-3) 0
  matmul c0 a0

/-- `philtorch/lpv/ssm.py:289-297`, `A_cums_plus_I`. -/
def ssrCumsPlusI (cums : Tensor α) (M : Nat) : Res (Tensor α) := do
  let e ← expand (eye M) ((cums.shape.take (cums.rank - 3) ++ [1, M, M]).map some)
  cat2 cums e (-3)

/-- `philtorch/lpv/ssm.py:298-302`, `mat1`. -/
def ssrMat1 (cI : Tensor α) (xdim : Nat) : Res (Tensor α) :=
  if xdim = 3 then do
    let c ← mT cI
    flatten c (-3) (-2)
  else select cI (-1) 0

/-- `philtorch/lpv/ssm.py:314-318`: the state matrices used inside the blocks. -/
def ssrInnerA (uA : Tensor α) (batchSize : Nat) : Res (Tensor α) :=
  if uA.rank = 5 then do
    let a ← slice uA 2 none (some (-1))
    flatten a 0 1
  else do
    let a ← slice uA 1 none (some (-1))
    repeat0 a batchSize

/-- `philtorch/lpv/ssm.py:324-330`: append the state at the end of each block and undo the blocking. -/
def ssrAssemble (output initials : Tensor α) (out : Option Int) : Res (Tensor α) := do
  let fin ← slice initials 1 (some 1) none
  match out with
  | none =>
    let fin ← unsqueeze fin 2
    let o ← cat2 output fin 2
    flatten o 1 2
  | some i =>
    let fin ← select fin 2 i
    let fin ← unsqueeze fin (-1)
    let o ← cat2 output fin 2
    flatten o 1 2

/-- `philtorch/lpv/ssm.py:277-334`: one level of the blocked algorithm.  `rec` stands for the recursive call, `looper`
for what is run inside the blocks. -/
def ssrBlocked (looper : Tensor α → Tensor α → Tensor α → Option Int → Res (Tensor α))
    (rec : Tensor α → Tensor α → Tensor α → Res (Tensor α)) (A zi x : Tensor α) (u N M : Nat)
    (out : Option Int) : Res (Tensor α) := do
  let xp ← (if N % u ≠ 0 then padDim x 1 0 ((u - N % u : Nat) : Int) 0 else pure x)
  let Ap ← (if N % u ≠ 0 then padDim A (-3) 0 ((u - N % u : Nat) : Int) 0 else pure A)
  let ux ← unflatten xp 1 [none, some u]
  let uxf ← flatten ux 2 (-1)
  let uA ← unflatten Ap (-3) [none, some u]
  let cums ← ssrCums uA
  let last ← ssrLastCum cums uA
  let cI ← ssrCumsPlusI cums M
  let mat1 ← ssrMat1 cI x.rank
  let ux1 ← unsqueeze uxf (-2)
  let z ← matmul ux1 mat1
  let z ← squeeze z (-2)
  let zi1 ← unsqueeze zi 1
  let r ← rec last zi z
  let initials ← cat2 zi1 r 1
  let iA ← ssrInnerA uA (x.size 0)
  let i0 ← slice initials 1 none (some (-1))
  let i0 ← flatten i0 0 1
  let ux0 ← slice ux 2 none (some (-1))
  let ux0 ← flatten ux0 0 1
  let output ← looper iA i0 ux0 out
  let output ← unflatten output 0 [some (x.size 0), none]
  let output ← ssrAssemble output initials out
  if N % u ≠ 0 then slice output 1 none (some (-((u - N % u : Nat) : Int))) else return output

/-- `philtorch/lpv/ssm.py:208-334`, `state_space_recursion`.  `looper` is `_recursion_loop`, or `_ext_ss_recur` when
Helion is used (line 271).  `fuel` bounds the recursion depth. -/
def stateSpaceRecursionAux (looper : Tensor α → Tensor α → Tensor α → Option Int → Res (Tensor α)) (u : Int) :
    Nat → Tensor α → Tensor α → Tensor α → Option Int → Res (Tensor α)
  | 0, _, _, _, _ => .error "RecursionError"
  | fuel + 1, A, zi, x, out => do
    check (x.rank = 2 ∨ x.rank = 3) "AssertionError: Input signal must be 2D or 3D (batch, time, [features])"
    check (A.rank = 3 ∨ A.rank = 4) "AssertionError: State matrix A must be 3D or 4D"
    check (A.size (-2) = A.size (-1)) "AssertionError: State matrix A must be square"
    check (A.size (-3) = x.size 1) "AssertionError: State matrix A must have the same time dimension as x"
    check (A.rank = 4 → x.size 0 = A.size 0) "AssertionError: Batch size of A must match batch size of x"
    check (x.rank = 3 → A.size (-1) = x.size (-1)) "AssertionError: Last dimension of A must match last dimension of x"
    check (zi.rank = 2) "AssertionError: Initial conditions zi must be 2D"
    check (zi.size 0 = x.size 0) "AssertionError: Batch size of zi must match batch size of x"
    check (zi.size 1 = A.size (-1)) "AssertionError: Last dimension of zi must match last dimension of A"
    check (¬ u < 1) "ValueError: Unroll factor must be >= 1"
    if u.toNat = 1 ∨ u.toNat ≥ x.size 1 then
      looper A zi x out
    else
      ssrBlocked looper (fun A zi x => stateSpaceRecursionAux looper u fuel A zi x none) A zi x u.toNat (x.size 1)
        (A.size (-1)) out

/-- `philtorch/lpv/ssm.py:208-334`, `state_space_recursion` without Helion. -/
def stateSpaceRecursion (A zi x : Tensor α) (u : Int) (out : Option Int) : Res (Tensor α) :=
  stateSpaceRecursionAux recursionLoop u (x.size 1 + 1) A zi x out

end Phil.Lpv
