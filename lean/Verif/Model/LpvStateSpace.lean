import Verif.Model.LtiStateSpace
import Verif.Model.LpvSsm

/-!
# Model of philtorch/lpv/ssm.py: `state_space`
-/

namespace Phil.Lpv
open Torch Torch.Tensor
open Phil.Lti (featuresOf initialState shiftedStates)

variable {α : Type} [CommRing α] [StarRing α]

/-- `philtorch/lpv/ssm.py:413-454`: the input term `Bx` (`match B.shape`, cases in source order). -/
def inputTerm (B x : Tensor α) (batch N M : Nat) (features : Int) : Res (Tensor α) :=
  match B.shape with
  | [b0] =>
    if b0 = M then do
      check (x.rank = 2) "AssertionError: Input signal x must be 2D"
      let x1 ← unsqueeze x (-1)
      mul x1 B
    else .error "ValueError: Input matrix B"
  | [b0, b1] =>
    if b0 = M ∧ (b1 : Int) = features then do
      let BT ← mT B
      matmul x BT
    else if b0 = N ∧ b1 = M then do
      check (x.rank = 2) "AssertionError: Input signal x must be 2D"
      let x1 ← unsqueeze x (-1)
      mul x1 B
    else if b0 = batch ∧ b1 = M then do
      check (x.rank = 2) "AssertionError: Input signal x must be 2D"
      let x1 ← unsqueeze x (-1)
      let B1 ← unsqueeze B 1
      mul x1 B1
    else .error "ValueError: Input matrix B"
  | [b0, b1, b2] =>
    if b0 = N ∧ b1 = M ∧ (b2 : Int) = features then do
      let x1 ← unsqueeze x (-2)
      vecdot (conj B) x1
    else if b0 = batch ∧ b2 = M ∧ b1 = N then do
      check (x.rank = 2) "AssertionError: Input signal x must be 2D"
      let x1 ← unsqueeze x (-1)
      mul x1 B
    else if b0 = batch ∧ b1 = M ∧ (b2 : Int) = features then do
      let B1 ← unsqueeze B 1
      let x1 ← unsqueeze x (-2)
      vecdot (conj B1) x1
    else .error "ValueError: Input matrix B"
  | [b0, b1, b2, b3] =>
    if b0 = batch ∧ b2 = M ∧ b1 = N ∧ (b3 : Int) = features then do
      let x1 ← unsqueeze x (-2)
      vecdot (conj B) x1
    else .error "ValueError: Input matrix B"
  | _ => .error "ValueError: Input matrix B"

/-- `philtorch/lpv/ssm.py:480-547`: the feedthrough term `Dx` (`match D.shape`, cases in source order). -/
def feedTerm (D x : Tensor α) (batch N : Nat) (features : Int) : Res (Tensor α) :=
  match D.shape with
  | [] => mul x D
  | [d0] =>
    if (d0 : Int) = features then matmul x D
    else if d0 = N then do
      check (x.rank = 2) "AssertionError: Input signal x must be 2D"
      mul D x
    else if d0 = batch then do
      check (x.rank = 2) "AssertionError: Input signal x must be 2D"
      let D1 ← unsqueeze D 1
      mul D1 x
    else if d0 = 1 then mul x D
    else do
      check (x.rank = 2) "AssertionError: Input signal x must be 2D"
      let x1 ← unsqueeze x (-1)
      mul x1 D
  | [d0, d1] =>
    if d0 = N ∧ (d1 : Int) = features then vecdot (conj D) x
    else if d0 = batch ∧ (d1 : Int) = features then do
      let D1 ← unsqueeze (conj D) 1
      vecdot D1 x
    else if d0 = N then do
      check (x.rank = 2) "AssertionError: Input signal x must be 2D"
      let x1 ← unsqueeze x (-1)
      mul D x1
    else if d0 = batch ∧ d1 = N then do
      check (x.rank = 2) "AssertionError: Input signal x must be 2D"
      mul D x
    else if d0 = batch then do
      check (x.rank = 2) "AssertionError: Input signal x must be 2D"
      let D1 ← unsqueeze D 1
      let x1 ← unsqueeze x (-1)
      mul D1 x1
    else if (d1 : Int) = features then do
      check (x.rank = 3) "AssertionError: Input signal x must be 3D"
      let DT ← mT D
      matmul x DT
    else .error "ValueError: Input matrix D"
  | [d0, d1, d2] =>
    if d0 = batch ∧ d1 = N ∧ (d2 : Int) = features then vecdot (conj D) x
    else if d0 = batch ∧ d1 = N then do
      check (x.rank = 2) "AssertionError: Input signal x must be 2D"
      let x1 ← unsqueeze x (-1)
      mul D x1
    else if d0 = N ∧ (d2 : Int) = features then do
      let x1 ← unsqueeze x (-2)
      vecdot (conj D) x1
    else if d0 = batch ∧ (d2 : Int) = features then do
      let DT ← mT D
      matmul x DT
    else .error "ValueError: Input matrix D"
  | [d0, d1, _, d3] =>
    if d0 = batch ∧ d1 = N ∧ (d3 : Int) = features then do
      let x1 ← unsqueeze x (-2)
      vecdot (conj D) x1
    else .error "ValueError: Input matrix D"
  | _ => .error "ValueError: Input matrix D"

/-- `philtorch/lpv/ssm.py:549-572`: the output term `Ch` (`match C.shape`, cases in source order). -/
def outputTerm (C h : Tensor α) (batch N M : Nat) : Res (Tensor α) :=
  match C.shape with
  | [c0] => if c0 = M then matmul h C else .error "ValueError: Output matrix C"
  | [c0, c1] =>
    if c0 = N ∧ c1 = M then vecdot (conj C) h
    else if c0 = batch ∧ c1 = M then do
      let C1 ← unsqueeze C 1
      vecdot (conj C1) h
    else if c1 = M then do
      let CT ← mT C
      matmul h CT
    else .error "ValueError: Output matrix C"
  | [c0, c1, c2] =>
    if c0 = N ∧ c2 = M then do
      let h1 ← unsqueeze h (-2)
      vecdot (conj C) h1
    else if c0 = batch ∧ c2 = M ∧ c1 = N then vecdot (conj C) h
    else if c0 = batch ∧ c2 = M then do
      let CT ← mT C
      matmul h CT
    else .error "ValueError: Output matrix C"
  | [c0, c1, _, c3] =>
    if c0 = batch ∧ c3 = M ∧ c1 = N then do
      let h1 ← unsqueeze h (-2)
      vecdot (conj C) h1
    else .error "ValueError: Output matrix C"
  | _ => .error "ValueError: Output matrix C"

/-- `philtorch/lpv/ssm.py:475-577`: output and feedthrough. -/
def ssmCD (h x : Tensor α) (C D : Option (Tensor α)) (batch N M : Nat) : Res (Tensor α) := do
  let Dx ← (match D with
    | some D => (do let d ← feedTerm D x batch N (featuresOf x); pure (some d))
    | none => pure none)
  let Ch ← (match C with
    | some C => outputTerm C h batch N M
    | none => pure h)
  match Dx with
  | some Dx => add Ch Dx
  | none => pure Ch

/-- `philtorch/lpv/ssm.py:337-581`, `state_space`; the result is `y` together with `zf` when the code returns it.
`runner` is `recur_runner` (lines 456-460); the default initial state (398-403) and the shift by one step (462-473) are
the same code as in `lti/ssm.py`. -/
def stateSpaceWith (runner : Tensor α → Tensor α → Tensor α → Int → Option Int → Res (Tensor α)) (A x : Tensor α)
    (B C D zi : Option (Tensor α)) (u : Option Int) (out : Option Int) : Res (Tensor α × Option (Tensor α)) := do
  check (x.rank = 2 ∨ x.rank = 3) "AssertionError: Input signal must be 2D or 3D (batch, time, [features])"
  check (A.rank = 3 ∨ A.rank = 4) "AssertionError: State matrix A must be 3D or 4D"
  check (A.size (-2) = A.size (-1)) "AssertionError: State matrix A must be square"
  check (A.size (-3) = x.size 1) "AssertionError: State matrix A must have the same time dimension as x"
  check (C = none ∨ out = none) "ValueError: C and out_idx cannot be used together"
  let z ← initialState zi (x.size 0) (A.size (-1))
  let Bx ← (match B with
    | some B => inputTerm B x (x.size 0) (x.size 1) (A.size (-1)) (featuresOf x)
    | none => pure x)
  let r ← shiftedStates runner A z Bx (u.getD (roundSqrt (x.size 1))) out zi.isSome
  let y ← ssmCD r.1 x C D (x.size 0) (x.size 1) (A.size (-1))
  return (y, r.2)

/-- `philtorch/lpv/ssm.py:337-581`, `state_space`, without the compiled extension. -/
def stateSpace (A x : Tensor α) (B C D zi : Option (Tensor α)) (u : Option Int) (out : Option Int) :
    Res (Tensor α × Option (Tensor α)) :=
  stateSpaceWith stateSpaceRecursion A x B C D zi u out

end Phil.Lpv
