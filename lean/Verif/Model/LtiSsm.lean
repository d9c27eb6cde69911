import Verif.Model.Mat

/-!
# Model of philtorch/lti/ssm.py: the state recursion
-/

namespace Phil.Lti
open Torch Torch.Tensor Phil.Mat

variable {α : Type} [CommRing α]

/-- `torch.cat([x.unsqueeze(-1), x.new_zeros(*x.shape, M - 1)], dim=-1)`: a scalar input drives the first state only
(`philtorch/lti/ssm.py:141-145`, `:187-191`). -/
def firstComponent (x : Tensor α) (M : Nat) : Res (Tensor α) := do
  check (0 < M) "RuntimeError: Trying to create tensor with negative dimension -1"
  let x1 ← unsqueeze x (-1)
  cat2 x1 (zeros (x.shape ++ [M - 1])) (-1)

/-- Keep the whole state, or select one component (`h` or `h[:, out_idx]` / `h[:, :, out_idx]`;
`philtorch/lti/ssm.py:150`, `:156`). -/
def pick (out : Option Int) (d : Int) (h : Tensor α) : Res (Tensor α) :=
  match out with
  | none => pure h
  | some i => select h d i

/-- `philtorch/lti/ssm.py:118-159`, `_recursion_loop`. -/
def recursionLoop (A zi x : Tensor α) (out : Option Int) : Res (Tensor α) := do
  let AT ← mT A
  let x ← (if x.rank = 2 then firstComponent x (A.size (-1)) else pure x)
  if A.rank = 2 then
    let xs ← unbind x 1
    let hs ← scanM (fun h xn => addmm xn h AT) zi xs
    let rs ← hs.mapM (pick out 1)
    stack rs 1
  else
    let h ← unsqueeze zi 1
    let xs ← unbind x 1
    let hs ← scanM (fun h xn => do let x1 ← unsqueeze xn 1; baddbmm x1 h AT) h xs
    let rs ← hs.mapM (pick out 2)
    cat rs 1

/-- `philtorch/lti/ssm.py:269-277`: `[A^(u-1), …, A, I]`. -/
def ssrPowersPlusI (A powers : Tensor α) (M : Nat) : Res (Tensor α) := do
  let p ← slice powers (-3) none (some (-1))
  let p ← flip p (-3)
  let e ← expand (eye M) (A.shape.map some)
  let e ← unsqueeze e (-3)
  cat2 p e (-3)

/-- `philtorch/lti/ssm.py:279-283`, `mat1`. -/
def ssrMat1 (p1 : Tensor α) (xdim : Nat) : Res (Tensor α) :=
  if xdim = 3 then do
    let p ← transpose p1 (-2) (-1)
    flatten p (-3) (-2)
  else select p1 (-1) 0

/-- `philtorch/lti/ssm.py:300`, `:334`, `mat2`. -/
def ssrMat2 (powers : Tensor α) (out : Option Int) : Res (Tensor α) := do
  let p ← slice powers (-3) none (some (-1))
  match out with
  | none => flatten p (-3) (-2)
  | some o => select p (-2) o

/-- `philtorch/lti/ssm.py:301-332`, `:335-364`, `mat3`. -/
def ssrMat3 (p1 : Tensor α) (u M xdim : Nat) (out : Option Int) : Res (Tensor α) := do
  let p ← slice p1 (-3) (some 1) none
  match out with
  | none =>
    if xdim = 3 then
      let c ← cat2 p (zeros (p1.shape.take (p1.rank - 3) ++ [u - 2, M, M])) (-3)
      let c ← unfold c (-3) (u - 1)
      let c ← transpose c (-2) (-1)
      let c ← flip c (-4)
      let c ← flatten c (-4) (-3)
      flatten c (-2) (-1)
    else
      let p ← select p (-1) 0
      let c ← cat2 p (zeros (p1.shape.take (p1.rank - 3) ++ [u - 2, M])) (-2)
      let c ← unfold c (-2) (u - 1)
      let c ← flip c (-3)
      flatten c (-3) (-2)
  | some o =>
    let p ← select p (-2) o
    if xdim = 3 then
      let c ← cat2 p (zeros (p1.shape.take (p1.rank - 3) ++ [u - 2, M])) (-2)
      let c ← unfold c (-2) (u - 1)
      let c ← transpose c (-2) (-1)
      let c ← flip c (-3)
      flatten c (-2) (-1)
    else
      let p ← select p (-1) 0
      let c ← cat2 p (zeros (p1.shape.take (p1.rank - 3) ++ [u - 2])) (-1)
      let c ← unfold c (-1) (u - 1)
      flip c (-2)

/-- `philtorch/lti/ssm.py:369-379`: append the state at the end of each block and undo the blocking. -/
def ssrAssemble (output initials : Tensor α) (M : Nat) (out : Option Int) : Res (Tensor α) := do
  let fin ← slice initials 1 (some 1) none
  match out with
  | none =>
    let o ← cat2 output fin 2
    let o ← unflatten o 2 [none, some M]
    flatten o 1 2
  | some i =>
    let fin ← select fin 2 i
    let fin ← unsqueeze fin (-1)
    let o ← cat2 output fin 2
    flatten o 1 2

/-- `philtorch/lti/ssm.py:260-383`: one level of the blocked algorithm.  `rec` stands for the recursive call. -/
def ssrBlocked (rec : Tensor α → Tensor α → Tensor α → Res (Tensor α)) (A zi x : Tensor α) (u N M : Nat)
    (out : Option Int) : Res (Tensor α) := do
  let xp ← (if N % u ≠ 0 then padDim x 1 0 ((u - N % u : Nat) : Int) 0 else pure x)
  let ux ← unflatten xp 1 [none, some u]
  let ux ← flatten ux 2 (-1)
  let powers ← matrixPowerAccumulateNat factorint A u
  let powered ← select powers (-3) (-1)
  let p1 ← ssrPowersPlusI A powers M
  let mat1 ← ssrMat1 p1 x.rank
  let z ← matmul ux mat1
  let zi1 ← unsqueeze zi 1
  let r ← rec powered zi z
  let initials ← cat2 zi1 r 1
  let i0 ← slice initials 1 none (some (-1))
  let ux0 ← slice ux (-1) none (some (-((if x.rank = 2 then 1 else M : Nat) : Int)))
  let augx ← cat2 i0 ux0 2
  let mat2 ← ssrMat2 powers out
  let mat3 ← ssrMat3 p1 u M x.rank out
  let m2t ← mT mat2
  let m3t ← mT mat3
  let augA ← cat2 m2t m3t (-2)
  let output ← matmul augx augA
  let output ← ssrAssemble output initials M out
  if N % u ≠ 0 then slice output 1 none (some (-((u - N % u : Nat) : Int))) else return output

/-- `philtorch/lti/ssm.py:198-383`, `state_space_recursion`.  `base` is what lines 255-258 call when the signal is not
blocked (`_recursion_loop`, or `_ext_ss_recur` when Helion is used).  `fuel` bounds the recursion depth. -/
def stateSpaceRecursionAux (base : Tensor α → Tensor α → Tensor α → Option Int → Res (Tensor α)) (u : Int) :
    Nat → Tensor α → Tensor α → Tensor α → Option Int → Res (Tensor α)
  | 0, _, _, _, _ => .error "RecursionError"
  | fuel + 1, A, zi, x, out => do
    check (x.rank = 2 ∨ x.rank = 3) "AssertionError: Input signal must be 2D or 3D (batch, time, [features])"
    check (A.rank = 2 ∨ A.rank = 3) "AssertionError: State matrix A must be 2D or 3D"
    check (A.size (-2) = A.size (-1)) "AssertionError: State matrix A must be square"
    check (A.rank = 3 → x.size 0 = A.size 0) "AssertionError: Batch size of A must match batch size of x"
    check (x.rank = 3 → A.size (-1) = x.size (-1)) "AssertionError: Last dimension of A must match last dimension of x"
    check (zi.rank = 2) "AssertionError: Initial conditions zi must be 2D"
    check (zi.size 0 = x.size 0) "AssertionError: Batch size of zi must match batch size of x"
    check (zi.size 1 = A.size (-1)) "AssertionError: Last dimension of zi must match last dimension of A"
    check (¬ u < 1) "ValueError: Unroll factor must be >= 1"
    if u.toNat = 1 ∨ u.toNat ≥ x.size 1 then
      base A zi x out
    else
      ssrBlocked (fun A zi x => stateSpaceRecursionAux base u fuel A zi x none) A zi x u.toNat (x.size 1) (A.size (-1)) out

/-- `philtorch/lti/ssm.py:198-383`, `state_space_recursion` without Helion. -/
def stateSpaceRecursion (A zi x : Tensor α) (u : Int) (out : Option Int) : Res (Tensor α) :=
  stateSpaceRecursionAux recursionLoop u (x.size 1 + 1) A zi x out

end Phil.Lti
