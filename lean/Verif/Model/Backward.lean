import Verif.Torch.Core

/-!
# Model of the derivative rules of the recurrence ops

`philtorch/__init__.py` registers one backward function per compiled op; `philtorch/lti/recur.py`,
`philtorch/lti/ssm.py` and `philtorch/lpv/ssm.py` wrap the same ops in `torch.autograd.Function`s with a backward and a
forward-mode rule.  The compiled op itself is a parameter (`op`), so that the rules can be combined with the models of
the CPU, CUDA and Helion kernels.  `ctx.saved_tensors` are the arguments `A zi y`; `ctx.needs_input_grad` is the
argument `needs`; a gradient that is not needed is `None`.
-/

namespace Phil.Grad
open Torch Torch.Tensor

variable {α : Type} [CommRing α] [StarRing α]

/-- A gradient is computed only if it is needed (`if ctx.needs_input_grad[k]`, `philtorch/__init__.py:52`, `:94`, `:134`, and so
on). -/
def ifNeeded (b : Bool) (r : Res (Tensor α)) : Res (Option (Tensor α)) :=
  if b then do let g ← r; return some g else return none

/-- `torch.cat([init.unsqueeze(1), out[:, :-1]], dim=1)`: the states before each step
(`philtorch/__init__.py:59-60`, `:101-102`, `:141-142`; `philtorch/lti/recur.py:52-53`, `:74`; `philtorch/lti/ssm.py:87-88`, `:108`;
`philtorch/lpv/ssm.py:87-88`, `:111`). -/
def previousStates (init out : Tensor α) : Res (Tensor α) := do
  let v ← slice out 1 none (some (-1))
  let i ← unsqueeze init 1
  cat2 i v 1

/-- `philtorch/__init__.py:115-148`, `_lti_recur_backward` with `op = torch.ops.philtorch.lti_recur`;
`philtorch/lti/recur.py:25-59`, `LTIRecurrence.backward` is the same code with
`op = LTIRecurrence.apply`, whose forward is `torch.ops.philtorch.lti_recur`.  Returns `(grad_a, grad_init, grad_x)`. -/
def ltiRecurBackward (op : Tensor α → Tensor α → Tensor α → Res (Tensor α)) (needs : Bool × Bool × Bool)
    (a init out gradOut : Tensor α) : Res (Option (Tensor α) × Option (Tensor α) × Option (Tensor α)) := do
  let bpInit ← select gradOut 1 (-1)
  let g ← slice gradOut 1 none (some (-1))
  let g ← flip g 1
  let r ← op (conj a) bpInit g
  let b1 ← unsqueeze bpInit 1
  let flippedGradX ← cat2 b1 r 1
  let gradInit ← ifNeeded needs.2.1 (do
    let l ← select flippedGradX 1 (-1)
    mul l (conj a))
  let gradX ← ifNeeded needs.2.2 (flip flippedGradX 1)
  let gradA ← ifNeeded needs.1 (do
    let paddedOut ← previousStates init out
    let gx ← flip flippedGradX 1
    if a.rank = 1 then vecdot paddedOut gx
    else do
      let p ← flatten paddedOut 0 1
      let q ← flatten gx 0 1
      matmul (conj p) q)
  return (gradA, gradInit, gradX)

/-- `philtorch/lti/recur.py:61-78`, `LTIRecurrence.jvp`; `none` is a missing tangent. -/
def ltiRecurJvp (op : Tensor α → Tensor α → Tensor α → Res (Tensor α)) (a init out : Tensor α)
    (gradA gradInit gradX : Option (Tensor α)) : Res (Tensor α) := do
  let fwdInit := gradInit.getD (zeros init.shape)
  let fwdX := gradX.getD (zeros out.shape)
  match gradA with
  | none => op a fwdInit fwdX
  | some da => do
    let concatOut ← previousStates init out
    let da ← viewColumn da
    let fwdA ← mul concatOut da
    let fwdX ← add fwdX fwdA
    op a fwdInit fwdX
where
  /-- `grad_a.view(-1, 1)` on a 0-D or 1-D tensor. -/
  viewColumn (t : Tensor α) : Res (Tensor α) := do
    check (t.rank ≤ 1) "RuntimeError: view (only 0-D and 1-D tensors are modelled)"
    let t ← (if t.rank = 0 then unsqueeze t 0 else pure t)
    unsqueeze t 1

/-- `philtorch/__init__.py:76-112`, `_lti_recurN_backward(f)`: `op2` is `torch.ops.philtorch.lti_recur2`.
`philtorch/lti/ssm.py:67-96`, `LTIMatrixRecurrence.backward` is the same code with
`f = op2 = LTIMatrixRecurrence.apply`. -/
def ltiRecurNBackward (f op2 : Tensor α → Tensor α → Tensor α → Res (Tensor α)) (needs : Bool × Bool × Bool)
    (A zi y gradY : Tensor α) : Res (Option (Tensor α) × Option (Tensor α) × Option (Tensor α)) := do
  let AmT ← mT A
  let AmT := conj AmT
  let g ← flip gradY 1
  let flippedGradX ← (if A.size (-1) ≠ 2 then f AmT (zeros zi.shape) g else op2 AmT (zeros zi.shape) g)
  let gradZi ← ifNeeded needs.2.1 (do
    let l ← select flippedGradX 1 (-1)
    let l ← unsqueeze l (-1)
    let p ← matmul AmT l
    squeeze p (-1))
  let gradX ← ifNeeded needs.2.2 (flip flippedGradX 1)
  let gradA ← ifNeeded needs.1 (do
    let paddedY ← previousStates zi y
    let gx ← flip flippedGradX 1
    if A.rank = 2 then do
      let p ← flatten gx 0 1
      let p ← mT p
      let q ← flatten (conj paddedY) 0 1
      matmul p q
    else do
      let p ← mT gx
      matmul p (conj paddedY))
  return (gradA, gradZi, gradX)

/-- `philtorch/lti/ssm.py:98-115`, `LTIMatrixRecurrence.jvp`. -/
def ltiRecurNJvp (op : Tensor α → Tensor α → Tensor α → Res (Tensor α)) (A zi y : Tensor α)
    (gradA gradZi gradX : Option (Tensor α)) : Res (Tensor α) := do
  let fwdZi := gradZi.getD (zeros zi.shape)
  let fwdX := gradX.getD (zeros y.shape)
  match gradA with
  | none => op A fwdZi fwdX
  | some dA => do
    let paddedY ← previousStates zi y
    let dA ← (if dA.rank = 2 then pure dA else unsqueeze dA (-3))
    let p ← unsqueeze paddedY (-1)
    let fwdA ← matmul dA p
    let fwdA ← squeeze fwdA (-1)
    let fwdX ← add fwdX fwdA
    op A fwdZi fwdX

/-- `philtorch/__init__.py:34-73`, `_recurN_backward(f)`: `op2` is `torch.ops.philtorch.recur2`.
`philtorch/lpv/ssm.py:64-99`, `MatrixRecurrence.backward` is the same code with `f = op2 = MatrixRecurrence.apply`. -/
def recurNBackward (f op2 : Tensor α → Tensor α → Tensor α → Res (Tensor α)) (needs : Bool × Bool × Bool)
    (A zi y gradY : Tensor α) : Res (Option (Tensor α) × Option (Tensor α) × Option (Tensor α)) := do
  let AmT ← mT A
  let AmT := conj AmT
  let rolled ← rollNeg1 AmT (-3)
  let rolled ← flip rolled (-3)
  let g ← flip gradY 1
  let flippedGradX ← (if A.size (-1) ≠ 2 then f rolled (zeros zi.shape) g else op2 rolled (zeros zi.shape) g)
  let gradZi ← ifNeeded needs.2.1 (do
    let A0 ← select AmT (-3) 0
    let l ← select flippedGradX 1 (-1)
    let l ← unsqueeze l (-1)
    let p ← matmul A0 l
    squeeze p (-1))
  let gradX ← ifNeeded needs.2.2 (flip flippedGradX 1)
  let gradA ← ifNeeded needs.1 (do
    let paddedY ← previousStates zi y
    let gx ← flip flippedGradX 1
    if A.rank = 3 then do
      let p ← permute120 gx
      let q ← transpose (conj paddedY) 0 1
      matmul p q
    else do
      let p ← unsqueeze (conj paddedY) (-2)
      let q ← unsqueeze gx (-1)
      mul p q)
  return (gradA, gradZi, gradX)

/-- `philtorch/lpv/ssm.py:101-115`, `MatrixRecurrence.jvp`. -/
def recurNJvp (op : Tensor α → Tensor α → Tensor α → Res (Tensor α)) (A zi y : Tensor α)
    (gradA gradZi gradX : Option (Tensor α)) : Res (Tensor α) := do
  let fwdZi := gradZi.getD (zeros zi.shape)
  let fwdX := gradX.getD (zeros y.shape)
  match gradA with
  | none => op A fwdZi fwdX
  | some dA => do
    let paddedY ← previousStates zi y
    let p ← unsqueeze paddedY (-1)
    let fwdA ← matmul dA p
    let fwdA ← squeeze fwdA (-1)
    let fwdX ← add fwdX fwdA
    op A fwdZi fwdX

end Phil.Grad
