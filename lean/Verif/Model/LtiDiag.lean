import Verif.Model.LtiStateSpace
import Verif.Model.LtiRecur
import Verif.Torch.Linalg

/-!
# Model of philtorch/lti/ssm.py: `diag_state_space`

Every tensor holds numbers of one type `α`, so the promotions from a real to a complex dtype (lines 731-738) are the identity;
errors raised by PyTorch for mixed dtypes are not modelled.  `h.real` (lines 826-828) is a function `re`, applied when the
flag `realC` says that `C` has a real dtype.
-/

namespace Phil.Lti
open Torch Torch.Tensor

variable {α : Type}

section
variable [CommRing α] [StarRing α]

/-- `philtorch/lti/ssm.py:740-746`: the initial state in the eigenbasis, `Vinvzi`. -/
def diagInit (W zi : Tensor α) : Res (Tensor α) :=
  if W.rank = 2 then do
    let WT ← mT W
    matmul zi WT
  else if W.rank = 3 then do
    let z1 ← unsqueeze zi 1
    vecdot (conj W) z1
  else .error "AssertionError: Vinv must be 2D or 3D"

/-- `philtorch/lti/ssm.py:753-784`: the input in the eigenbasis for a given input matrix (`match B.shape`, cases in source
order). -/
def diagInputWith (W Bm x : Tensor α) (batch M : Nat) (features : Int) : Res (Tensor α) :=
  match Bm.shape with
  | [b0] =>
    if b0 = M then do
      check (x.rank = 2) "AssertionError: Input signal x must be 2D"
      let WB ← matmul W Bm
      let WB ← (if WB.rank = 2 then unsqueeze WB 1 else pure WB)
      let x1 ← unsqueeze x (-1)
      mul x1 WB
    else .error "ValueError: Input matrix B"
  | [b0, b1] =>
    if b0 = batch ∧ b1 = M then do
      check (x.rank = 2) "AssertionError: Input signal x must be 2D"
      let WB ← (if W.rank = 2 then do
          let WT ← mT W
          matmul Bm WT
        else do
          let B1 ← unsqueeze Bm 1
          vecdot (conj W) B1)
      let x1 ← unsqueeze x (-1)
      let WB1 ← unsqueeze WB 1
      mul x1 WB1
    else if b0 = M ∧ (b1 : Int) = features then do
      let WB ← matmul W Bm
      let WBT ← mT WB
      matmul x WBT
    else .error "ValueError: Input matrix B"
  | [b0, b1, b2] =>
    if b0 = batch ∧ b1 = M ∧ (b2 : Int) = features then do
      let WB ← matmul W Bm
      let WB1 ← unsqueeze WB 1
      let x1 ← unsqueeze x (-2)
      vecdot (conj WB1) x1
    else .error "ValueError: Input matrix B"
  | _ => .error "ValueError: Input matrix B"

/-- `philtorch/lti/ssm.py:753-792`: the input in the eigenbasis, `VinvBx`. -/
def diagInput (W : Tensor α) (Bm : Option (Tensor α)) (x : Tensor α) (batch M : Nat) (features : Int) : Res (Tensor α) :=
  match Bm with
  | some Bm => diagInputWith W Bm x batch M features
  | none =>
    if x.rank = 2 ∧ W.rank = 2 then do
      let w ← select W 1 0
      let x1 ← unsqueeze x (-1)
      mul x1 w
    else if x.rank = 2 ∧ W.rank = 3 then do
      let w ← select W 2 0
      let w ← unsqueeze w 1
      let x1 ← unsqueeze x (-1)
      mul x1 w
    else if x.rank = 3 then do
      let WT ← mT W
      matmul x WT
    else .error "AssertionError: Input signal x must be 2D or 3D"

/-- `philtorch/lti/ssm.py:794-804`: all states in the eigenbasis, shape `(batch, M, N)`; `runner` is `recur_runner`. -/
def diagRecur (runner : Tensor α → Tensor α → Tensor α → Int → Res (Tensor α)) (L Wz Wx : Tensor α) (batch M : Nat) (u : Int) :
    Res (Tensor α) := do
  let L2 ← expand L [some batch, some M]
  let L1 ← flatten L2 0 1
  let z1 ← flatten Wz 0 (-1)
  let xT ← mT Wx
  let x1 ← flatten xT 0 1
  let h ← runner L1 z1 x1 u
  unflatten h 0 [some batch, some M]

/-- `philtorch/lti/ssm.py:805-824`: back to the original basis; the states delayed by one step and the final state. -/
def diagStates (V Wh zi : Tensor α) (out : Option Int) (returnZf : Bool) : Res (Tensor α × Option (Tensor α)) :=
  match out with
  | none => do
    let h ← matmul V Wh
    let h ← mT h
    let zf ← (if returnZf then (do let z ← select h 1 (-1); pure (some z)) else pure none)
    let z1 ← unsqueeze zi 1
    let h' ← slice h 1 none (some (-1))
    let h ← cat2 z1 h' 1
    pure (h, zf)
  | some i =>
    if returnZf then do
      let h ← matmul V Wh
      let h ← mT h
      let zf ← select h 1 (-1)
      let z1 ← select zi 1 i
      let z1 ← unsqueeze z1 1
      let h' ← slice h 1 none (some (-1))
      let h' ← select h' 2 i
      let h ← cat2 z1 h' 1
      pure (h, some zf)
    else do
      let z1 ← select zi 1 i
      let z1 ← unsqueeze z1 1
      let v ← select V (-2) i
      let v ← unsqueeze v (-2)
      let Wh' ← slice Wh (-1) none (some (-1))
      let h ← matmul v Wh'
      let h ← squeeze h (-2)
      let h ← cat2 z1 h 1
      pure (h, none)

/-- `philtorch/lti/ssm.py:826-828`: drop the imaginary parts when `C` has a real dtype. -/
def dropImag (re : α → α) (drop : Bool) (r : Tensor α × Option (Tensor α)) : Tensor α × Option (Tensor α) :=
  if drop then (map re r.1, r.2.map (map re)) else r

/-- `philtorch/lti/ssm.py:724-833`: `diag_state_space` once `L`, `V`, `Vinv` and the state dimension are known. -/
def diagRun (runner : Tensor α → Tensor α → Tensor α → Int → Res (Tensor α)) (re : α → α) (realC : Bool)
    (L V W x : Tensor α) (Bm C D zi : Option (Tensor α)) (out : Option Int) (u : Int) (M : Nat) :
    Res (Tensor α × Option (Tensor α)) := do
  let z ← initialState zi (x.size 0) M
  let Wz ← diagInit W z
  let Wx ← diagInput W Bm x (x.size 0) M (featuresOf x)
  let Wh ← diagRecur runner L Wz Wx (x.size 0) M u
  let r ← diagStates V Wh z out zi.isSome
  let y ← ssmCD (dropImag re (C.isSome && realC) r).1 x C D (x.size 0) M
  return (y, (dropImag re (C.isSome && realC) r).2)

end

/-- Nothing, or a tensor of the given shape (`philtorch/lti/ssm.py:662-677`, `:684-699`). -/
def absentOrShape [Zero α] (X : Option (Tensor α)) (s : List Nat) : Bool := X.all fun X => X.shape = s

/-- `philtorch/lti/ssm.py:658-704`: the checks on given eigenvalues, and the state dimension. -/
def checkEigen [Zero α] (L : Tensor α) (V W A : Option (Tensor α)) (batch : Nat) : Res Nat :=
  match L.shape with
  | [M] => do
    check (absentOrShape V [M, M]) "AssertionError: P must be square"
    check (absentOrShape W [M, M]) "AssertionError: Vinv must be square"
    check (absentOrShape A [M, M]) "AssertionError: A must be square"
    return M
  | [b0, M] =>
    if b0 = batch then do
      check (V.isSome ∨ W.isSome) "AssertionError: P and Vinv cannot both be None when L is a batch of vectors"
      check (absentOrShape V [batch, M, M]) "AssertionError: P must be a batch of square matrices"
      check (absentOrShape W [batch, M, M]) "AssertionError: Vinv must be a batch of square matrices"
      check (absentOrShape A [batch, M, M]) "AssertionError: A must be a batch of square matrices"
      return M
    else .error "ValueError: L must be a vector or a batch of vectors"
  | _ => .error "ValueError: L must be a vector or a batch of vectors"

/-- `philtorch/lti/ssm.py:706-722`: complete the pair `V`, `Vinv` (`match`, cases in source order).
`findEigenvectors` is `philtorch.mat.find_eigenvectors`. -/
noncomputable def completeBasis [Field α] (findEigenvectors : Tensor α → Tensor α → Res (Tensor α)) (L : Tensor α)
    (V W A : Option (Tensor α)) (M : Nat) : Res (Tensor α × Tensor α) :=
  match V, W, A with
  | none, none, none => pure (eye M, eye M)
  | none, none, some A => do
    let V ← findEigenvectors A L
    let W ← linalgInv V
    pure (V, W)
  | none, some W, _ => do
    let V ← linalgInv W
    pure (V, W)
  | some V, none, _ => do
    let W ← linalgInv V
    pure (V, W)
  | some V, some W, _ => pure (V, W)

/-- `philtorch/lti/ssm.py:592-833`, `diag_state_space`.  `eigvals` is `torch.linalg.eigvals`. -/
noncomputable def diagStateSpaceWith [Field α] [StarRing α] (runner : Tensor α → Tensor α → Tensor α → Int → Res (Tensor α))
    (eigvals : Tensor α → Res (Tensor α)) (findEigenvectors : Tensor α → Tensor α → Res (Tensor α)) (re : α → α) (realC : Bool)
    (x : Tensor α) (L V W A Bm C D zi : Option (Tensor α)) (out : Option Int) (u : Option Int) :
    Res (Tensor α × Option (Tensor α)) := do
  check (x.rank = 2 ∨ x.rank = 3) "AssertionError: Input signal must be 2D or 3D"
  check (C = none ∨ out = none) "ValueError: C and out_idx cannot be used together"
  match L with
  | none =>
    match A with
    | none => .error "AssertionError: Either L or A must be provided"
    | some A => do
      check (A.rank = 2 ∨ A.rank = 3) "AssertionError: State matrix A must be 2D or 3D"
      check (A.size (-2) = A.size (-1)) "AssertionError: State matrix A must be square"
      check (A.rank = 3 → x.size 0 = A.size 0) "AssertionError: Batch size of A must match batch size of x"
      let L ← eigvals A
      let b ← completeBasis findEigenvectors L none none (some A) (A.size (-1))
      diagRun runner re realC L b.1 b.2 x Bm C D zi out (u.getD (roundSqrt (x.size 1))) (A.size (-1))
  | some L => do
    let M ← checkEigen L V W A (x.size 0)
    let b ← completeBasis findEigenvectors L V W A M
    diagRun runner re realC L b.1 b.2 x Bm C D zi out (u.getD (roundSqrt (x.size 1))) M

/-- `philtorch/lti/ssm.py:592-833`, `diag_state_space` without the compiled extension. -/
noncomputable def diagStateSpace [Field α] [StarRing α]
    (eigvals : Tensor α → Res (Tensor α)) (findEigenvectors : Tensor α → Tensor α → Res (Tensor α)) (re : α → α) (realC : Bool)
    (x : Tensor α) (L V W A Bm C D zi : Option (Tensor α)) (out : Option Int) (u : Option Int) :
    Res (Tensor α × Option (Tensor α)) :=
  diagStateSpaceWith linearRecurrence eigvals findEigenvectors re realC x L V W A Bm C D zi out u

end Phil.Lti
