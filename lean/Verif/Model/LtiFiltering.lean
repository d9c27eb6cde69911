import Verif.Torch.Conv
import Verif.Model.LtiStateSpace
import Verif.Model.LtiRecur

/-!
# Model of philtorch/lti/filtering.py: `fir`, `lfilter`, `_ssm_lfilter`
-/

namespace Phil.Lti
open Torch Torch.Tensor Phil.Mat

variable {α : Type} [CommRing α] [StarRing α]

/-- `philtorch/lti/filtering.py:180-192`: the branch `transpose=True` of `fir`. -/
def firTransposed (b x : Tensor α) (zi : Option (Tensor α)) : Res (Tensor α × Option (Tensor α)) := do
  let x1 ← unsqueeze x 0
  let b1 ← unsqueeze b 1
  let y ← convTranspose1d x1 (conj b1) (x.size 0)
  let y ← squeeze y 0
  match zi with
  | some z =>
    let zf ← slice y 1 (some (-((b.size 1 : Int) - 1))) none
    let y ← slice y 1 none (some (-((b.size 1 : Int) - 1)))
    let y1 ← slice y 1 none (some ((b.size 1 : Int) - 1))
    let y1 ← add z y1
    let y2 ← slice y 1 (some ((b.size 1 : Int) - 1)) none
    let y ← cat2 y1 y2 1
    pure (y, some zf)
  | none =>
    let y ← slice y 1 none (some (-((b.size 1 : Int) - 1)))
    pure (y, none)

/-- `philtorch/lti/filtering.py:194-208`: the branch `transpose=False` of `fir`. -/
def firDirect (b x : Tensor α) (zi : Option (Tensor α)) : Res (Tensor α × Option (Tensor α)) := do
  let r ← (match zi with
    | none => (do
      let p ← padDim x (-1) ((b.size 1 : Int) - 1) 0 0
      pure (p, (none : Option (Tensor α))))
    | some z => (do
      let zr ← flip z 1
      let p ← cat2 zr x 1
      let zf ← slice p 1 (some (-((b.size 1 : Int) - 1))) none
      let zf ← flip zf 1
      pure (p, some zf)))
  let p1 ← unsqueeze r.1 0
  let b1 ← flip b 1
  let b1 ← unsqueeze b1 1
  let y ← conv1d p1 b1 (x.size 0)
  let y ← squeeze y 0
  pure (y, r.2)

/-- `philtorch/lti/filtering.py:145-208`, `fir`; the second component is the final state when the code returns one. -/
def fir (b x : Tensor α) (zi : Option (Tensor α)) (transpose : Bool) : Res (Tensor α × Option (Tensor α)) := do
  check (b.rank = 2) "AssertionError: Numerator coefficients b must be 2D."
  check (x.rank = 2) "AssertionError: Input signal x must be 2D."
  check (b.size 0 = x.size 0) "AssertionError: The first dimension of b must match the batch size of x."
  check (∀ z, zi = some z → z.rank = 2) "AssertionError: Initial conditions zi must be 2D."
  check (∀ z, zi = some z → z.size 0 = x.size 0) "AssertionError: The first dimension of zi must match the batch size."
  check (∀ z, zi = some z → (z.size 1 : Int) = (b.size 1 : Int) - 1)
    "AssertionError: The second dimension of zi must match the filter order."
  if transpose then firTransposed b x zi else firDirect b x zi

/-- The values of the `form` argument (`philtorch/lti/filtering.py:289-331`). -/
inductive Form
  | df1 | df2 | tdf1 | tdf2 | other

/-- `philtorch/lti/filtering.py:282-285`: zero-pad the shorter of `b` and `a`. -/
def padOrders (b a : Tensor α) : Res (Tensor α × Tensor α) := do
  if b.size (-1) < a.size (-1) + 1 then
    let b ← padDim b (-1) 0 ((a.size (-1) + 1 - b.size (-1) : Nat) : Int) 0
    pure (b, a)
  else if a.size (-1) + 1 < b.size (-1) then
    let a ← padDim a (-1) 0 ((b.size (-1) - a.size (-1) - 1 : Nat) : Int) 0
    pure (b, a)
  else pure (b, a)

/-- `philtorch/lti/filtering.py:291-293` (also `:305-307`): `b[..., 1:] - b[..., :1] * a` and `b[..., 0]`. -/
def outputCoefs (b a : Tensor α) : Res (Tensor α × Tensor α) := do
  let b0 ← slice b (-1) none (some 1)
  let bt ← slice b (-1) (some 1) none
  let p ← mul b0 a
  let C ← sub bt p
  let D ← select b (-1) 0
  pure (C, D)

/-- `philtorch/lti/filtering.py:273-333`, `_ssm_lfilter`.  `u` is the keyword argument `unroll_factor` (`none`: not
given); the only other keyword arguments of `state_space` are already fixed by this function. -/
def ssmLfilter (b a x : Tensor α) (zi : Option (Tensor α)) (form : Form) (u : Option Int) :
    Res (Tensor α × Option (Tensor α)) := do
  let ba ← padOrders b a
  let A ← companion ba.2
  match form with
  | .df2 =>
    let cd ← outputCoefs ba.1 ba.2
    stateSpace A x none (some cd.1) (some cd.2) zi u none
  | .tdf2 =>
    let cd ← outputCoefs ba.1 ba.2
    let AT ← mT A
    stateSpace (conj AT) x (some (conj cd.1)) none (some (conj cd.2)) zi u (some 0)
  | .df1 =>
    let bb ← expand ba.1 [some (x.size 0), none]
    let v ← fir bb x none true
    let y ← stateSpaceRecursion A (zeros [x.size 0, A.size (-1)]) v.1 (u.getD 1) (some 0)
    pure (y, none)
  | .tdf1 =>
    let bb ← expand (conj ba.1) [some (x.size 0), none]
    let AT ← mT A
    let v ← stateSpaceRecursion (conj AT) (zeros [x.size 0, A.size (-1)]) x (u.getD 1) (some 0)
    fir bb v none true
  | .other => .error "ValueError: Unknown filter form"

/-- `philtorch/lti/filtering.py:242-254` and `:264-270`, `lfilter` around a backend. -/
def lfilterWith (backend : Tensor α → Tensor α → Tensor α → Option (Tensor α) → Res (Tensor α × Option (Tensor α)))
    (b a x : Tensor α) (zi : Option (Tensor α)) : Res (Tensor α × Option (Tensor α)) := do
  let x2 ← (if x.rank = 1 then unsqueeze x 0
    else if 2 < x.rank then .error "ValueError: Input signal x must be 1D or 2D." else pure x)
  check (b.rank = 1 ∨ b.rank = 2) "AssertionError: Numerator coefficients b must be 1D or 2D."
  check (a.rank = 1 ∨ a.rank = 2) "AssertionError: Denominator coefficients a must be 1D or 2D."
  let r ← backend b a x2 zi
  if x.rank = 1 ∧ b.rank = 1 ∧ a.rank = 1 ∧ ∀ z, zi = some z → z.rank = 1 then do
    let y ← squeeze r.1 0
    match r.2 with
    | some zf =>
      let zf ← squeeze zf 0
      pure (y, some zf)
    | none => pure (y, none)
  else pure r

/-- `philtorch/lti/filtering.py:211-270`, `lfilter` with `backend="ssm"`. -/
def lfilter (b a x : Tensor α) (zi : Option (Tensor α)) (form : Form) (u : Option Int) :
    Res (Tensor α × Option (Tensor α)) :=
  lfilterWith (fun b a x zi => ssmLfilter b a x zi form u) b a x zi

end Phil.Lti
