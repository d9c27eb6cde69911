import Verif.Model.LtiSsm

/-!
# Model of philtorch/lti/ssm.py: `state_space`, `_ssm_C_D`
-/

namespace Phil

/-- `round(N**0.5)` of `philtorch/lti/ssm.py:453` (also `:645`, `philtorch/lpv/ssm.py:406`): the integer nearest to the square root (never half-way). -/
def roundSqrt (N : Nat) : Nat := if N ≤ Nat.sqrt N * Nat.sqrt N + Nat.sqrt N then Nat.sqrt N else Nat.sqrt N + 1

end Phil

namespace Phil.Lti
open Torch Torch.Tensor

variable {α : Type} [CommRing α] [StarRing α]

/-- `philtorch/lti/ssm.py:455-458` and `:529-532`: `features` (`-1` for a two-dimensional signal). -/
def featuresOf (x : Tensor α) : Int := if x.rank = 2 then -1 else (x.size (-1) : Int)

/-- `philtorch/lti/ssm.py:460-485`: the input term `Bx` (`match B.shape`, cases in source order). -/
def inputTerm (B x : Tensor α) (batch M : Nat) (features : Int) : Res (Tensor α) :=
  match B.shape with
  | [b0] =>
    if b0 = M then do
      check (x.rank = 2) "AssertionError: Input signal x must be 2D"
      let x1 ← unsqueeze x (-1)
      mul x1 B
    else .error "ValueError: Input matrix B"
  | [b0, b1] =>
    if b0 = batch ∧ b1 = M then do
      check (x.rank = 2) "AssertionError: Input signal x must be 2D"
      let x1 ← unsqueeze x (-1)
      let B1 ← unsqueeze B 1
      mul x1 B1
    else if b0 = M ∧ (b1 : Int) = features then do
      let BT ← mT B
      matmul x BT
    else .error "ValueError: Input matrix B"
  | [b0, b1, b2] =>
    if b0 = batch ∧ b1 = M ∧ (b2 : Int) = features then do
      let B1 ← unsqueeze B 1
      let x1 ← unsqueeze x (-2)
      vecdot (conj B1) x1
    else .error "ValueError: Input matrix B"
  | _ => .error "ValueError: Input matrix B"

/-- `philtorch/lti/ssm.py:534-566`: the feedthrough term `Dx` (`match D.shape`, cases in source order). -/
def feedTerm (D x : Tensor α) (batch : Nat) (features : Int) : Res (Tensor α) :=
  match D.shape with
  | [] => mul x D
  | [d0] =>
    if (d0 : Int) = features then matmul x D
    else if d0 = batch then do
      check (x.rank = 2) "AssertionError: Input signal x must be 2D"
      let D1 ← unsqueeze D 1
      mul D1 x
    else if d0 = 1 then mul x D
    else do
      check (x.rank = 2) "AssertionError: Input signal x must be 2D"
      let x1 ← unsqueeze x (-1)
      mul D x1
  | [d0, d1] =>
    if d0 = batch ∧ (d1 : Int) = features then do
      let D1 ← unsqueeze D 1
      vecdot (conj D1) x
    else if d0 = batch then do
      check (x.rank = 2) "AssertionError: Input signal x must be 2D"
      let D1 ← unsqueeze D 1
      let x1 ← unsqueeze x (-1)
      mul D1 x1
    else if (d1 : Int) = features then do
      let DT ← mT D
      matmul x DT
    else .error "ValueError: Input matrix D"
  | [d0, _, d2] =>
    if d0 = batch ∧ (d2 : Int) = features then do
      let D1 ← unsqueeze D 1
      let x1 ← unsqueeze x (-2)
      vecdot (conj D1) x1
    else .error "ValueError: Input matrix D"
  | _ => .error "ValueError: Input matrix D"

/-- `philtorch/lti/ssm.py:568-583`: the output term `Ch` (`match C.shape`, cases in source order). -/
def outputTerm (C h : Tensor α) (batch M : Nat) : Res (Tensor α) :=
  match C.shape with
  | [c0] => if c0 = M then matmul h C else .error "ValueError: Output matrix C"
  | [c0, c1] =>
    if c0 = batch ∧ c1 = M then do
      let C1 ← unsqueeze C 1
      vecdot (conj C1) h
    else if c1 = M then do
      let CT ← mT C
      matmul h CT
    else .error "ValueError: Output matrix C"
  | [c0, _, c2] =>
    if c0 = batch ∧ c2 = M then do
      let CT ← mT C
      matmul h CT
    else .error "ValueError: Output matrix C"
  | _ => .error "ValueError: Output matrix C"

/-- `philtorch/lti/ssm.py:513-589`, `_ssm_C_D`. -/
def ssmCD (h x : Tensor α) (C D : Option (Tensor α)) (batch M : Nat) : Res (Tensor α) := do
  let Dx ← (match D with
    | some D => (do let d ← feedTerm D x batch (featuresOf x); pure (some d))
    | none => pure none)
  let Ch ← (match C with
    | some C => outputTerm C h batch M
    | none => pure h)
  match Dx with
  | some Dx => add Ch Dx
  | none => pure Ch

/-- `philtorch/lti/ssm.py:445-450`: the initial state. -/
def initialState (zi : Option (Tensor α)) (batch M : Nat) : Res (Tensor α) :=
  match zi with
  | none => .ok (zeros [batch, M])
  | some z =>
    if z.rank = 1 then do
      let z1 ← unsqueeze z 0
      expand z1 [some batch, none]
    else .ok z

/-- `philtorch/lti/ssm.py:493-504`: run the recursion, keep the final state, and shift the states by one step.  The
first component of the result is the state sequence seen by the output, the second the final state. -/
def shiftedStates (runner : Tensor α → Tensor α → Tensor α → Int → Option Int → Res (Tensor α)) (A zi Bx : Tensor α)
    (u : Int) (out : Option Int) (returnZf : Bool) : Res (Tensor α × Option (Tensor α)) :=
  match out with
  | none => do
    let h ← runner A zi Bx u none
    let zf ← (if returnZf then (do let z ← select h 1 (-1); pure (some z)) else pure none)
    let z1 ← unsqueeze zi 1
    let h' ← slice h 1 none (some (-1))
    let h ← cat2 z1 h' 1
    pure (h, zf)
  | some i =>
    if returnZf then do
      let h ← runner A zi Bx u none
      let zf ← select h 1 (-1)
      let z1 ← select zi 1 i
      let z1 ← unsqueeze z1 1
      let h' ← slice h 1 none (some (-1))
      let h' ← select h' 2 i
      let h ← cat2 z1 h' 1
      pure (h, some zf)
    else do
      let h ← runner A zi Bx u (some i)
      let z1 ← select zi 1 i
      let z1 ← unsqueeze z1 1
      let h' ← slice h 1 none (some (-1))
      let h ← cat2 z1 h' 1
      pure (h, none)

/-- `philtorch/lti/ssm.py:386-510`, `state_space`; the result is `y` together with `zf` when the code returns it.
`runner` is `recur_runner` (lines 487-491). -/
def stateSpaceWith (runner : Tensor α → Tensor α → Tensor α → Int → Option Int → Res (Tensor α)) (A x : Tensor α)
    (B C D zi : Option (Tensor α)) (u : Option Int) (out : Option Int) : Res (Tensor α × Option (Tensor α)) := do
  check (x.rank = 2 ∨ x.rank = 3) "AssertionError: Input signal must be 2D or 3D (batch, time, [features])"
  check (A.rank = 2 ∨ A.rank = 3) "AssertionError: State matrix A must be 2D or 3D"
  check (A.size (-2) = A.size (-1)) "AssertionError: State matrix A must be square"
  check (A.rank = 3 → x.size 0 = A.size 0) "AssertionError: Batch size of A must match batch size of x"
  check (C = none ∨ out = none) "ValueError: C and out_idx cannot be used together"
  let z ← initialState zi (x.size 0) (A.size (-1))
  let Bx ← (match B with
    | some B => inputTerm B x (x.size 0) (A.size (-1)) (featuresOf x)
    | none => pure x)
  let r ← shiftedStates runner A z Bx (u.getD (roundSqrt (x.size 1))) out zi.isSome
  let y ← ssmCD r.1 x C D (x.size 0) (A.size (-1))
  return (y, r.2)

/-- `philtorch/lti/ssm.py:386-510`, `state_space`, without the compiled extension. -/
def stateSpace (A x : Tensor α) (B C D zi : Option (Tensor α)) (u : Option Int) (out : Option Int) :
    Res (Tensor α × Option (Tensor α)) :=
  stateSpaceWith stateSpaceRecursion A x B C D zi u out

end Phil.Lti
