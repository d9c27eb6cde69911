import Verif.Model.LpvStateSpace
import Verif.Model.LtiFiltering

/-!
# Model of philtorch/lpv/utils.py and philtorch/lpv/filtering.py

`torchlpc.sample_wise_lpc` is an external function; it is the parameter `lpc` of the functions that call it.  It returns
the filtered signal and the final state (which the callers drop when they do not ask for it); what is assumed about it is
written down in `Verif/Spec/Lpc.lean`.
-/

namespace Phil.Lpv
open Torch Torch.Tensor Phil.Mat
open Phil.Lti (Form padOrders outputCoefs)

variable {α : Type} [CommRing α] [StarRing α]

/-- `philtorch/lpv/utils.py:6-33`, `diag_shift`, for `offset ≥ 0`. -/
def diagShift (coef : Tensor α) (offset : Nat) (discardEnd : Bool) : Res (Tensor α) := do
  check (2 ≤ coef.rank) "AssertionError: Coefficient tensor must have at least 2 dimensions."
  let T := coef.size (-2)
  let M := coef.size (-1)
  let c ← mT coef
  let p ← padDim c (-1) (offset : Int) (M : Int) 0
  let y ← flatten p (-2) (-1)
  let y ← unflatten y (-1) [some (T + M + offset), some M]
  let y ← slice y (-2) none (some (-1))
  let y ← flatten y (-2) (-1)
  let y ← unflatten y (-1) [some M, some (T + M + offset - 1)]
  let y ← (if discardEnd then slice y (-1) none (some (-((M : Int) - 1 + offset))) else pure y)
  mT y

/-- `philtorch/lpv/filtering.py:57-78`: the branch `transpose=True` of `fir`. -/
def firTransposed (b x : Tensor α) (zi : Option (Tensor α)) : Res (Tensor α × Option (Tensor α)) := do
  let s ← diagShift b 0 zi.isNone
  let sf ← flip s 2
  let p ← padDim x (-1) ((s.size 2 : Int) - 1) (if zi.isNone then 0 else (s.size 2 : Int) - 1) 0
  let w ← unfold p 1 (s.size 2)
  let y ← vecdot sf w
  match zi with
  | some z =>
    let r ← split2 y (x.size 1) (b.size 2 - 1) 1
    let y1 ← slice r.1 (-1) none (some ((b.size 2 : Int) - 1))
    let y1 ← add y1 z
    let y2 ← slice r.1 (-1) (some ((b.size 2 : Int) - 1)) none
    let y ← cat2 y1 y2 (-1)
    pure (y, some r.2)
  | none => pure (y, none)

/-- `philtorch/lpv/filtering.py:80-85`: the branch `transpose=False` of `fir`; `z` is the initial state, zero by default. -/
def firDirect (b x z : Tensor α) (returnZf : Bool) : Res (Tensor α × Option (Tensor α)) := do
  let zr ← flip z 1
  let p ← cat2 zr x 1
  let w ← unfold p 1 (b.size 2)
  let bf ← flip b 2
  let y ← vecdot (conj w) bf
  if returnZf then
    let l ← select w 1 (-1)
    let l ← slice l (-1) (some 1) none
    let zf ← flip l 1
    pure (y, some zf)
  else pure (y, none)

/-- `philtorch/lpv/filtering.py:19-85`, `fir`; the second component is the final state when the code returns one. -/
def fir (b x : Tensor α) (zi : Option (Tensor α)) (transpose : Bool) : Res (Tensor α × Option (Tensor α)) := do
  check (b.rank = 3) "AssertionError: Numerator coefficients b must be 3D."
  check (x.rank = 2) "AssertionError: Input signal x must be 2D."
  check (b.shape.take 2 = x.shape) "AssertionError: The first two dimensions of b must match the shape of x."
  check (zi = none → 0 < b.size 2) "RuntimeError: Trying to create tensor with negative dimension -1"
  check (∀ z, zi = some z → z.rank = 2) "AssertionError: Initial conditions zi must be 2D."
  check (∀ z, zi = some z → z.size 0 = x.size 0) "AssertionError: The first dimension of zi must match the batch size."
  check (∀ z, zi = some z → (z.size 1 : Int) = (b.size 2 : Int) - 1)
    "AssertionError: The second dimension of zi must match the filter order."
  if transpose then firTransposed b x zi
  else firDirect b x (zi.getD (zeros [x.size 0, b.size 2 - 1])) zi.isSome

/-- An external function with the interface of `torchlpc.sample_wise_lpc(x, a, zi)`, returning signal and final state (called in
`philtorch/lpv/filtering.py:130` and `:135`). -/
abbrev Lpc (α : Type) [Zero α] := Tensor α → Tensor α → Option (Tensor α) → Res (Tensor α × Tensor α)

/-- `philtorch/lpv/filtering.py:123-133`: the branch `transpose=True` of `allpole`; `z` is the initial state, zero by
default. -/
def allpoleTransposed (lpc : Lpc α) (a x z : Tensor α) (returnZf : Bool) : Res (Tensor α × Option (Tensor α)) := do
  let s ← diagShift (conj a) 1 (!returnZf)
  let x1 ← slice x 1 none (some (s.size 2 : Int))
  let x1 ← add z x1
  let x2 ← slice x 1 (some (s.size 2 : Int)) none
  let xs ← cat ([x1, x2] ++ if returnZf then [zeros z.shape] else []) 1
  let y ← lpc xs s none
  if returnZf then
    let r ← split2 y.1 (x.size 1) (s.size 2) 1
    pure (r.1, some r.2)
  else pure (y.1, none)

/-- `philtorch/lpv/filtering.py:88-135`, `allpole`; the second component is the final state when the code returns one. -/
def allpole (lpc : Lpc α) (a x : Tensor α) (zi : Option (Tensor α)) (transpose : Bool) :
    Res (Tensor α × Option (Tensor α)) := do
  check (a.rank = 3) "AssertionError: Denominator coefficients a must be 3D."
  check (x.rank = 2) "AssertionError: Input signal x must be 2D."
  check (a.shape.take 2 = x.shape) "AssertionError: The first two dimensions of a must match the shape of x."
  check (∀ z, zi = some z → z.rank = 2) "AssertionError: Initial conditions zi must be 2D."
  check (∀ z, zi = some z → z.size 0 = x.size 0) "AssertionError: The first dimension of zi must match the batch size."
  check (∀ z, zi = some z → z.size 1 = a.size 2)
    "AssertionError: The second dimension of zi must match the filter order."
  let z := zi.getD (zeros [x.size 0, a.size 2])
  if transpose then allpoleTransposed lpc a x z zi.isSome
  else do
    let r ← lpc x a (some z)
    pure (r.1, if zi.isSome then some r.2 else none)

/-- `philtorch/lpv/filtering.py:207-218`: add the missing batch axis to `b` or `a`. -/
def withBatchAxis (c : Tensor α) : Res (Tensor α) :=
  if c.rank = 2 then unsqueeze c 0
  else if c.rank = 3 then pure c
  else .error "ValueError: coefficients must be 2D or 3D."

/-- `philtorch/lpv/filtering.py:226-239`: the batch size `B` and the initial state with batch axis. -/
def torchlpcState (zi : Option (Tensor α)) (B order : Nat) : Res (Nat × Tensor α) :=
  match zi with
  | none => pure (B, zeros [B, order])
  | some z =>
    if z.rank = 1 then do
      check (z.size 0 = order) "AssertionError: Initial conditions zi must match filter order."
      let z ← unsqueeze z 0
      let z ← expand z [some B, none]
      pure (B, z)
    else if z.rank = 2 then do
      check (z.size 1 = order) "AssertionError: Initial conditions zi must match filter order."
      let z' ← expand z [some (max B (z.size 0)), none]
      pure (max B (z.size 0), z')
    else .error "ValueError: Initial conditions zi must be 1D or 2D."

/-- `philtorch/lpv/filtering.py:245-283`: the four forms of `_torchlpc_lfilter`; `z` is the initial state. -/
def torchlpcForms (lpc : Lpc α) (b a x z : Tensor α) (returnZf : Bool) (form : Form) :
    Res (Tensor α × Option (Tensor α)) :=
  match form with
  | .df2 => do
    let za ← slice z 1 none (some (a.size 2 : Int))
    let zb ← slice z 1 none (some ((b.size 2 : Int) - 1))
    let w ← allpole lpc a x (some za) false
    let y ← fir b w.1 (some zb) false
    match w.2, y.2 with
    | some azf, some bzf =>
      pure (y.1, if returnZf then some (if azf.size 1 < bzf.size 1 then bzf else azf) else none)
    | _, _ => .error "unreachable: both filters return a state when given one"
  | .tdf2 => .error "NotImplementedError: Transposed Direct Form II (tdf2) is not implemented yet."
  | .df1 => do
    let v ← fir b x none false
    allpole lpc a v.1 none false
  | .tdf1 => do
    let v ← allpole lpc a x none true
    fir b v.1 none true
  | .other => .error "ValueError: Unknown filter form"

/-- `philtorch/lpv/filtering.py:197-285`, `_torchlpc_lfilter`. -/
def torchlpcLfilter (lpc : Lpc α) (b a x : Tensor α) (zi : Option (Tensor α)) (form : Form) :
    Res (Tensor α × Option (Tensor α)) := do
  check (x.rank = 2) "ValueError: not enough values to unpack"
  let b ← withBatchAxis b
  let a ← withBatchAxis a
  check (b.size 1 = a.size 1 ∧ a.size 1 = x.size 1)
    "AssertionError: The number of time steps in b and a must match the input signal x."
  let Bz ← torchlpcState zi (max (max (b.size 0) (a.size 0)) (x.size 0)) (max (a.size 2) (b.size 2 - 1))
  let bb ← expand b [some Bz.1, none, none]
  let ab ← expand a [some Bz.1, none, none]
  let xb ← expand x [some Bz.1, none]
  torchlpcForms lpc bb ab xb Bz.2 zi.isSome form

/-- `philtorch/lpv/filtering.py:288-370`, `_ssm_lfilter`, without the compiled extension.  `u` is the keyword argument
`unroll_factor` (`none`: not given); padding and output coefficients (297-300, 306-308) are the code of
`lti/filtering.py`. -/
def ssmLfilter (b a x : Tensor α) (zi : Option (Tensor α)) (form : Form) (u : Option Int) :
    Res (Tensor α × Option (Tensor α)) := do
  let ba ← padOrders b a
  let A ← companion ba.2
  match form with
  | .df2 =>
    let cd ← outputCoefs ba.1 ba.2
    stateSpace A x none (some cd.1) (some cd.2) zi u none
  | .tdf2 =>
    let cd ← outputCoefs ba.1 ba.2
    let AT ← mT A
    stateSpace (conj AT) x (some (conj cd.1)) none (some (conj cd.2)) zi u (some 0)
  | .df1 =>
    let bb ← expand ba.1 [some (x.size 0), none, none]
    let v ← fir bb x none false
    let y ← stateSpaceRecursion A (zeros [x.size 0, A.size (-1)]) v.1 (u.getD 1) (some 0)
    pure (y, none)
  | .tdf1 =>
    let bb ← expand (conj ba.1) [some (x.size 0), none, none]
    let AT ← mT A
    let v ← stateSpaceRecursion (conj AT) (zeros [x.size 0, A.size (-1)]) x (u.getD 1) (some 0)
    fir bb v none true
  | .other => .error "ValueError: Unknown filter form"

/-- `philtorch/lpv/filtering.py:160-173` and `:185-194`, `lfilter` around a backend. -/
def lfilterWith (backend : Tensor α → Tensor α → Tensor α → Option (Tensor α) → Res (Tensor α × Option (Tensor α)))
    (b a x : Tensor α) (zi : Option (Tensor α)) : Res (Tensor α × Option (Tensor α)) := do
  let x2 ← (if x.rank = 1 then unsqueeze x 0
    else if 2 < x.rank then .error "ValueError: Input signal x must be 1D or 2D." else pure x)
  check (b.rank = 2 ∨ b.rank = 3) "AssertionError: Numerator coefficients b must be 2D or 3D."
  check (a.rank = 2 ∨ a.rank = 3) "AssertionError: Denominator coefficients a must be 2D or 3D."
  let r ← backend b a x2 zi
  if x.rank = 1 ∧ b.rank = 2 ∧ a.rank = 2 ∧ ∀ z, zi = some z → z.rank = 1 then do
    let y ← squeeze r.1 0
    match r.2 with
    | some zf =>
      let zf ← squeeze zf 0
      pure (y, some zf)
    | none => pure (y, none)
  else pure r

/-- The values of the `backend` argument (`philtorch/lpv/filtering.py:175-183`). -/
inductive Backend
  | ssm | torchlpc | other

/-- `philtorch/lpv/filtering.py:138-194`, `lfilter`. -/
def lfilter (lpc : Lpc α) (b a x : Tensor α) (zi : Option (Tensor α)) (form : Form) (backend : Backend)
    (u : Option Int) : Res (Tensor α × Option (Tensor α)) :=
  lfilterWith (fun b a x zi => match backend with
    | .ssm => ssmLfilter b a x zi form u
    | .torchlpc => torchlpcLfilter lpc b a x zi form
    | .other => .error "ValueError: Unknown backend") b a x zi

end Phil.Lpv
