import Verif.Model.LtiRecur

/-!
# Model of philtorch/lti/filtering.py: `comb_filter`
-/

namespace Phil.Lti
open Torch Torch.Tensor

variable {α : Type} [CommRing α] [StarRing α]

/-- `philtorch/lti/filtering.py:58-64`: the call of line 60 (`linear_recurrence`) when the compiled extension is loaded, of
line 62 (`LTIRecurrence.apply`) when it is not.  `LTIRecurrence.forward` (`philtorch/lti/recur.py:15-17`) calls the operator
`torch.ops.philtorch.lti_recur`, which only the extension defines. -/
def combRecurrence (ext : Bool) (a zi x : Tensor α) (u : Int) : Res (Tensor α) :=
  if ext then linearRecurrence a zi x u
  else .error "AttributeError: '_OpNamespace' 'philtorch' object has no attribute 'lti_recur'"

/-- `philtorch/lti/filtering.py:48-56`: the initial values of the folded recurrences. -/
def combInit (a x : Tensor α) (zi : Option (Tensor α)) : Res (Tensor α) :=
  match zi with
  | some z =>
    if z.rank = 1 then do
      let z ← flip z 0
      repeat0 z (x.size 0)
    else do
      let z ← flip z 1
      flatten z 0 (-1)
  | none => pure (zeros a.shape)

/-- `philtorch/lti/filtering.py:15-71`, `comb_filter`; `ext` is `EXTENSION_LOADED`, `u` the unroll factor of
`linear_recurrence` (its default is 1), and the second component is the final state when the code returns one. -/
def combFilter (ext : Bool) (a : Tensor α) (delay : Int) (x : Tensor α) (zi : Option (Tensor α)) (u : Int) :
    Res (Tensor α × Option (Tensor α)) := do
  check (a.rank ≤ 1) "AssertionError: Denominator coefficients a must be at most 1D."
  check (x.rank = 2) "AssertionError: Input signal x must be 2D."
  check (0 ≤ delay) "AssertionError: Delay must be non-negative."
  check (a.rank = 1 → a.size 0 = x.size 0) "AssertionError: The first dimension of a must match the batch size of x."
  if delay = 1 then do
    let init ← (match zi with
      | none => pure (zeros a.shape)
      | some z => squeeze z (-1))
    let y ← linearRecurrence (neg a) init x u
    pure (y, none)
  else do
    check (delay ≠ 0) "ZeroDivisionError: integer modulo by zero"
    let remainder := x.size 1 % delay.toNat
    let x ← (if remainder ≠ 0 then padDim x 1 0 ((delay.toNat - remainder : Nat) : Int) 0 else pure x)
    let folded ← unflatten x 1 [none, some delay.toNat]
    let folded ← mT folded
    let a ← (if a.rank = 1 then repeatInterleave a delay.toNat else pure a)
    let init ← combInit a x zi
    let flat ← flatten folded 0 1
    let y ← combRecurrence ext (neg a) init flat u
    let y ← unflatten y 0 [none, some delay.toNat]
    let y ← mT y
    let y ← flatten y 1 2
    let y ← (if remainder ≠ 0 then slice y 1 none (some (-((delay.toNat - remainder : Nat) : Int))) else pure y)
    match zi with
    | some _ => do
      let zf ← slice y 1 (some (-delay)) none
      let zf ← flip zf 1
      pure (y, some zf)
    | none => pure (y, none)

end Phil.Lti
