import Verif.Model.ProtoSignal

/-!
# Model of philtorch/prototype/signal.py:172-373, `sos2pfe`

Real and complex numbers are elements of one field.  Parameters of the model, besides those of `unique_roots`: `sqrt` is the complex square
root, `re` the real part, `neg x` is `x < 0` for real `x`.  `expsumlog` of complex numbers is their product; of real numbers it is NaN if one
of them is negative, and results containing NaN are modelled as failure.  Divisions by zero are not modelled, and `0 ** 0` is `1`.
-/

namespace Phil.Proto
open Torch
variable {α : Type}

/-- A row of `sos` (`philtorch/prototype/signal.py:180-190`). -/
structure Section (α : Type) where
  b0 : α
  b1 : α
  b2 : α
  a0 : α
  a1 : α
  a2 : α

/-- The result of `sos2pfe`; the two residue tensors have rank one or two (`philtorch/prototype/signal.py:368-373`). -/
structure Pfe (α : Type) where
  realRes : Arr α
  cplxRes : Arr α
  realPoles : List α
  cplxPoles : List α
  realPowers : List Nat
  cplxPowers : List Nat
  gain : α

/-- The slice `[::2]`. -/
def everyOther {β : Type} : List β → List β
  | [] => []
  | [a] => [a]
  | a :: _ :: l => a :: everyOther l

/-- The slice `[::2]` of the first dimension. -/
def Arr.everyOther : Arr α → Arr α
  | .flat l => .flat (Phil.Proto.everyOther l)
  | .rows l => .rows (Phil.Proto.everyOther l)

/-- `torch.cat([l, r])` of a 1-D tensor `l`; an empty 1-D tensor may be combined with any shape
(`philtorch/prototype/signal.py:351-361`). -/
def catVec (l : List α) : Arr α → Res (Arr α)
  | .flat r => .ok (.flat (l ++ r))
  | .rows r => if l = [] then .ok (.rows r) else .error "RuntimeError: Tensors must have same number of dimensions"

section
variable [Field α] [DecidableEq α]

/-- `philtorch/prototype/signal.py:183,190`, `b1`. -/
def Section.nb1 (s : Section α) : α := s.b1 / s.b0

/-- `philtorch/prototype/signal.py:183,190`, `b2`. -/
def Section.nb2 (s : Section α) : α := s.b2 / s.b0

/-- `philtorch/prototype/signal.py:184,189`, `a1`. -/
def Section.na1 (s : Section α) : α := s.a1 / s.a0

/-- `philtorch/prototype/signal.py:184,189`, `a2`. -/
def Section.na2 (s : Section α) : α := s.a2 / s.a0

/-- `philtorch/prototype/signal.py:192`, `sqrt_term`. -/
def Section.disc (s : Section α) : α := s.na1 * s.na1 - 4 * s.na2

/-- `philtorch/prototype/signal.py:195-204`, `all_roots`. -/
def sosRoots (sqrt : α → α) (sos : List (Section α)) : List α :=
  sos.flatMap fun s => [(-s.na1 + sqrt s.disc) / 2, (-s.na1 - sqrt s.disc) / 2]

/-- `philtorch/prototype/signal.py:193,205`, `is_complex_root.repeat(2)`. -/
def sosFlags (neg : α → Bool) (sos : List (Section α)) : List Bool := (sos.map fun s => neg s.disc) ++ sos.map fun s => neg s.disc

/-- `philtorch/prototype/signal.py:219-232`: the residue of the simple pole `i` of the ordered poles `l`. -/
def simpleResidue (sos : List (Section α)) (l : List (α × Nat × Bool)) (i : Nat) : α :=
  let p := (l.getD i (0, 0, false)).1
  (sos.map fun s => p * p + p * s.nb1 + s.nb2).prod /
    ((List.range l.length).map fun j => (p - (l.getD j (0, 0, false)).1) ^ (if j = i then 0 else (l.getD j (0, 0, false)).2.1)).prod

/-- `philtorch/prototype/signal.py:289-294`: `c` rounds, started at `j`. -/
def derivLoop (pole : α) : Nat → Nat → List α → List α → List (Val α)
  | 0, _, _, _ => []
  | c + 1, j, n, d =>
    let n' := polysub (polymul (polyderNat n 1) d) (polymul n (polyderNat d 1))
    let d' := (polymul d d).map fun e => e * ((j - 1 : Nat) : α)
    divVal (polyval n' (.scalar pole)) (polyval d' (.scalar pole)) :: derivLoop pole c (j + 1) n' d'

/-- `philtorch/prototype/signal.py:261-296`: the block of the repeated pole `i`; `rep` are the positions of the repeated poles. -/
def repeatedBlock (l : List (α × Nat × Bool)) (rep : List Nat) (numerator nonRepDen : List α) (i : Nat) : Res (List (Val α)) := do
  let others := rep.flatMap fun j =>
    List.replicate (if j = i then 0 else (l.getD j (0, 0, false)).2.1) [1, -(l.getD j (0, 0, false)).1]
  let dd ← if others = [] then .ok [1] else polysmul others
  let d := polymul nonRepDen dd
  let pole := (l.getD i (0, 0, false)).1
  return divVal (polyval numerator (.scalar pole)) (polyval d (.scalar pole)) ::
    derivLoop pole ((l.getD i (0, 0, false)).2.1 - 1) 2 numerator d

/-- The loop of `philtorch/prototype/signal.py:260-296`. -/
def repeatedBlocks (l : List (α × Nat × Bool)) (rep : List Nat) (numerator nonRepDen : List α) : List Nat → Res (List (List (Val α)))
  | [] => .ok []
  | i :: is => do
    let b ← repeatedBlock l rep numerator nonRepDen i
    let bs ← repeatedBlocks l rep numerator nonRepDen is
    return b :: bs

/-- The blocks of the poles whose flag is `c`, `philtorch/prototype/signal.py:305-308,323-329`. -/
def selectBlocks (l : List (α × Nat × Bool)) (c : Bool) (rep : List Nat) (blocks : List (List (Val α))) : List (Val α) :=
  ((rep.zip blocks).filter fun x => (l.getD x.1 (0, 0, false)).2.2 == c).flatMap fun x => x.2

/-- `philtorch/prototype/signal.py:247-349`: the residues of the repeated poles, real and complex. -/
def repeatedPart (sos : List (Section α)) (l : List (α × Nat × Bool)) (simple rep : List Nat) : Res (Arr α × Arr α) :=
  if rep = [] then .ok (.flat [], .flat [])
  else do
    let numerator ← polysmul (sos.map fun s => [1, s.nb1, s.nb2])
    let nonRepDen ← if simple = [] then .ok [1] else polysmul (simple.map fun j => [1, -(l.getD j (0, 0, false)).1])
    let blocks ← repeatedBlocks l rep numerator nonRepDen rep
    let r ← stackVals (selectBlocks l false rep blocks)
    let c ← if (rep.filter fun i => (l.getD i (0, 0, false)).2.2) = [] then .ok (.flat []) else stackVals (selectBlocks l true rep blocks)
    return (r, c)

/-- The positions of the poles whose flag is `c` (`philtorch/prototype/signal.py:234-242`, `:298-344`). -/
def withFlag (l : List (α × Nat × Bool)) (c : Bool) (is : List Nat) : List Nat := is.filter fun i => (l.getD i (0, 0, false)).2.2 == c

/-- `philtorch/prototype/signal.py:351,357`: the poles of one kind, simple ones first. -/
def partPoles (l : List (α × Nat × Bool)) (c : Bool) (simple rep : List Nat) : List α :=
  ((withFlag l c simple).map fun i => (l.getD i (0, 0, false)).1) ++
    (withFlag l c rep).flatMap fun i => List.replicate (l.getD i (0, 0, false)).2.1 (l.getD i (0, 0, false)).1

/-- `philtorch/prototype/signal.py:353-355,359-361`: their powers; `torch.arange(m, 0, -1)` for a repeated pole. -/
def partPowers (l : List (α × Nat × Bool)) (c : Bool) (simple rep : List Nat) : List Nat :=
  ((withFlag l c simple).map fun _ => 1) ++
    (withFlag l c rep).flatMap fun i => (List.range (l.getD i (0, 0, false)).2.1).map fun k => (l.getD i (0, 0, false)).2.1 - k

/-- `philtorch/prototype/signal.py:215-373`: everything after the poles have been ordered. -/
def pfeOf (re : α → α) (sos : List (Section α)) (gain : α) (l : List (α × Nat × Bool)) : Res (Pfe α) := do
  let rep := (List.range l.length).filter fun i => 1 < (l.getD i (0, 0, false)).2.1
  let simple := (List.range l.length).filter fun i => !decide (1 < (l.getD i (0, 0, false)).2.1)
  let rc ← repeatedPart sos l simple rep
  let realRes ← catVec ((withFlag l false simple).map fun i => re (simpleResidue sos l i)) (rc.1.map re)
  let cplxRes ← catVec ((withFlag l true simple).map fun i => simpleResidue sos l i) rc.2
  check ((partPoles l true simple rep).length % 2 = 0) "AssertionError: Complex poles must be even."
  return {
    realRes := realRes.map fun r => r * gain
    cplxRes := (cplxRes.map fun r => r * gain).everyOther
    realPoles := (partPoles l false simple rep).map re
    cplxPoles := everyOther (partPoles l true simple rep)
    realPowers := partPowers l false simple rep
    cplxPowers := everyOther (partPowers l true simple rep)
    gain := gain }

/-- `philtorch/prototype/signal.py:172-373`, `sos2pfe`. -/
def sos2pfe (sqrt re : α → α) (neg : α → Bool) (close : α → α → Bool) (order : List α → List Nat) (rtype : RType)
    (sos : List (Section α)) : Res (Pfe α) := do
  check (∀ s ∈ sos, neg (s.b0 / s.a0) = false) "nan"
  let gain := (sos.map fun s => s.b0 / s.a0).prod
  let u ← uniqueRoots close rtype (sosRoots sqrt sos) (some (sosFlags neg sos))
  let l := (order (u.map fun x => x.1)).map fun i => u.getD i (0, 0, false)
  pfeOf re sos gain l

end
end Phil.Proto
