import Verif.Torch.Solve
import Verif.Model.LtiFiltering

/-!
# Model of philtorch/lti/filtering.py: `lfiltic`, `lfilter_zi`
-/

namespace Phil.Lti
open Torch Torch.Tensor Phil.Mat

section
variable {α : Type} [CommRing α]

/-- `philtorch/lti/filtering.py:95`+`:97` (and `:96`+`:98`): `(F.pad(c, (0, n - 1)).unfold(-1, n, 1) @ s.unsqueeze(-1)).squeeze(-1)`
where `n = c.size(-1)`. -/
def hankelApply (c s : Tensor α) : Res (Tensor α) := do
  let p ← padDim c (-1) 0 ((c.size (-1) : Int) - 1) 0
  let h ← unfold p (-1) (c.size (-1))
  let s1 ← unsqueeze s (-1)
  let v ← matmul h s1
  squeeze v (-1)

/-- `philtorch/lti/filtering.py:99-102`: `if v.size(-1) < k: v = F.pad(v, (0, k - v.size(-1)))`. -/
def padTo (v : Tensor α) (k : Nat) : Res (Tensor α) :=
  if v.size (-1) < k then padDim v (-1) 0 ((k - v.size (-1) : Nat) : Int) 0 else pure v

/-- `philtorch/lti/filtering.py:74-104`, `lfiltic`. -/
def lfiltic (b a y : Tensor α) (x : Option (Tensor α)) : Res (Tensor α) := do
  check (1 ≤ b.rank) "AssertionError: Numerator coefficients b must be at least 1D."
  check (1 ≤ a.rank) "AssertionError: Denominator coefficients a must be at least 1D."
  let bt ← slice b (-1) (some 1) none
  let zb ← hankelApply bt (x.getD (t1 (b.size (-1) - 1) fun _ => 0))
  let za ← hankelApply a y
  let zb ← padTo zb (max (a.size (-1)) (b.size (-1) - 1))
  let za ← padTo za (max (a.size (-1)) (b.size (-1) - 1))
  sub zb za

end

variable {α : Type} [Field α] [StarRing α]

/-- `philtorch/lti/filtering.py:137-142`: solve `(I - A) zi = B`, `A` of size `n`. -/
noncomputable def solveSteady (A Bv : Tensor α) (n : Nat) : Res (Tensor α) := do
  let I ← sub (eye n) A
  let I ← (if I.rank = 2 ∧ 1 < Bv.rank then expand I ((Bv.shape.dropLast.map some) ++ [none, none]) else pure I)
  linalgSolve I Bv

/-- `philtorch/lti/filtering.py:107-142`, `lfilter_zi`.  The padding of lines 125-129 and the numerator `B` of line 131 are
those of `_ssm_lfilter` (`padOrders`, `outputCoefs`). -/
noncomputable def lfilterZi (a : Tensor α) (b : Option (Tensor α)) (transpose : Bool) : Res (Tensor α) := do
  check (1 ≤ a.rank) "AssertionError: Denominator coefficients a must be at least 1D."
  if transpose then
    match b with
    | none => .error "ValueError: Numerator coefficients b must be provided for transpose=True."
    | some b =>
      check (1 ≤ b.rank) "AssertionError: Numerator coefficients b must be at least 1D."
      let ba ← padOrders b a
      let A ← companion ba.2
      let AT ← mT A
      let cd ← outputCoefs ba.1 ba.2
      solveSteady (conj AT) cd.1 (ba.2.size (-1))
  else
    let A ← companion a
    check (0 < a.size (-1)) "IndexError: index 0 is out of bounds"
    solveSteady A (t1 (a.size (-1)) fun i => if i = 0 then 1 else 0) (a.size (-1))

end Phil.Lti
