import Verif.Model.ProtoPoly

/-!
# Model of philtorch/prototype/signal.py, partial fractions

1-D tensors are lists.  Parameters of the model: `eigvals` (see `roots`), `small` (see `polydiv`), `close a b` for
`torch.cdist < tol`, and `order l`, the permutation `torch.argsort(torch.abs(l), descending=True)`.
-/

namespace Phil.Proto
open Torch
variable {α : Type}

/-- The argument `rtype` of `unique_roots` (`philtorch/prototype/signal.py:17-28`). -/
inductive RType where
  | max | min | mean | other
  deriving DecidableEq

/-- A 1-D tensor, or a 2-D tensor given by its rows (the residues of `philtorch/prototype/signal.py:103` and `:304-309`). -/
inductive Arr (α : Type) where
  | flat (l : List α)
  | rows (l : List (List α))

/-- The entry of a 0-D tensor (an operand of `philtorch/prototype/signal.py:95-101`). -/
def Val.scalar? : Val α → Option α
  | .scalar a => some a
  | .vec _ => none

/-- The entries of a 1-D tensor of length `n` (an operand of `philtorch/prototype/signal.py:95-101`). -/
def Val.vec? (n : Nat) : Val α → Option (List α)
  | .scalar _ => none
  | .vec w => if w.length = n then some w else none

/-- `torch.stack` of tensors of rank at most one (`philtorch/prototype/signal.py:103`, `:304-309`, `:322-330`). -/
def stackVals (l : List (Val α)) : Res (Arr α) :=
  match l with
  | [] => .error "RuntimeError: stack expects a non-empty TensorList"
  | .scalar _ :: _ =>
    match l.mapM Val.scalar? with
    | some l => .ok (.flat l)
    | none => .error "RuntimeError: stack expects each tensor to be equal size"
  | .vec v :: _ =>
    match l.mapM (Val.vec? v.length) with
    | some l => .ok (.rows l)
    | none => .error "RuntimeError: stack expects each tensor to be equal size"

section
variable [Field α] [DecidableEq α]

/-- `reduction(p[group])`, `philtorch/prototype/signal.py:17-28,49`, for complex `p`; `torch.max` and `torch.min` do not support complex
numbers. -/
def reduction (rtype : RType) (g : List α) : Res α :=
  match rtype with
  | .mean => .ok (g.sum / (g.length : α))
  | _ => .error "RuntimeError: max/min not implemented for complex tensors"

/-- `philtorch/prototype/signal.py:47`: the group of root `i`. -/
def groupOf (close : α → α → Bool) (p : List α) (cplx : List Bool) (used : Nat → Bool) (i : Nat) : List Nat :=
  (List.range p.length).filter fun j =>
    close (p.getD i 0) (p.getD j 0) && !used j && (if cplx.getD i false then cplx.getD j false else !cplx.getD j false)

/-- `philtorch/prototype/signal.py:43-51`: the loop with `c` rounds to go, at `i`. -/
def uniqueLoop (close : α → α → Bool) (rtype : RType) (p : List α) (cplx : List Bool) :
    Nat → Nat → (Nat → Bool) → Res (List (α × Nat × Bool))
  | 0, _, _ => .ok []
  | c + 1, i, used =>
    if used i then uniqueLoop close rtype p cplx c (i + 1) used
    else do
      let group := groupOf close p cplx used i
      let r ← reduction rtype (group.map fun j => p.getD j 0)
      let rest ← uniqueLoop close rtype p cplx c (i + 1) fun j => used j || decide (j ∈ group)
      return (r, group.length, cplx.getD i false) :: rest

/-- `philtorch/prototype/signal.py:10-53`, `unique_roots`; the three results as one list of triples. -/
def uniqueRoots (close : α → α → Bool) (rtype : RType) (p : List α) (cplx : Option (List Bool)) : Res (List (α × Nat × Bool)) := do
  check (rtype ≠ .other) "ValueError: `rtype` must be one of {'max', 'maximum', 'min', 'minimum', 'avg', 'mean'}"
  let l ← uniqueLoop close rtype p (cplx.getD (List.replicate p.length true)) p.length 0 fun _ => false
  check (l ≠ []) "RuntimeError: stack expects a non-empty TensorList"
  return l

/-- `philtorch/prototype/signal.py:60-66`: the products of the monomials to the right; `l` is the flipped list of roots and multiplicities
still to do. -/
def suffixLoop : List (α × Nat) → List α → List (List α) → Res (List (List α))
  | [], _, acc => .ok acc
  | (r, m) :: l, current, acc => do
    let c ← polysmul (current :: List.replicate m [1, -r])
    suffixLoop l c (c :: acc)

/-- `philtorch/prototype/signal.py:72-75`: the inner loop with `c` rounds to go, at `i`; returns the block and `current`. -/
def factorBlock (powers : Bool) (mole suffix : List α) : Nat → Nat → List α → List (List α) × List α
  | 0, _, current => ([], current)
  | c + 1, i, current =>
    let rest := factorBlock powers mole suffix c (i + 1) (polymul current mole)
    (if i = 0 ∨ powers then polymul current suffix :: rest.1 else rest.1, rest.2)

/-- `philtorch/prototype/signal.py:70-76`: the outer loop. -/
def factorLoop (powers : Bool) : List ((α × Nat) × List α) → List α → List (List α) × List α
  | [], current => ([], current)
  | ((r, m), suffix) :: l, current =>
    let b := factorBlock powers [1, -r] suffix m 0 current
    let rest := factorLoop powers l b.2
    (b.1.reverse ++ rest.1, rest.2)

/-- `philtorch/prototype/signal.py:56-78`, `_compute_factors`. -/
def computeFactors (rm : List (α × Nat)) (powers : Bool) : Res (List (List α) × List α) := do
  let suffixes ← suffixLoop rm.reverse.dropLast [1] [[1]]
  return factorLoop powers (rm.zip suffixes) [1]

/-- Quotient of two tensors of rank at most one, the longer of which has one entry or the length of the other
(`philtorch/prototype/signal.py:87-99`). -/
def divVal (a b : Val α) : Val α :=
  match a, b with
  | .scalar a, .scalar b => .scalar (a / b)
  | .scalar a, .vec b => .vec (b.map fun b => a / b)
  | .vec a, .scalar b => .vec (a.map fun a => a / b)
  | .vec a, .vec b => .vec (a.zipWith (· / ·) b)

/-- `philtorch/prototype/signal.py:95-99`: the residues of a repeated pole, highest power first. -/
def residueBlock (small : α → Bool) (monomial factor : List α) (d : α) : Nat → List α → List α
  | 0, _ => []
  | c + 1, numer =>
    let qn := polydiv small numer monomial
    let r := qn.2.getD 0 0 / d
    r :: residueBlock small monomial factor d c (polysub qn.1 (factor.map fun e => r * e))

/-- `philtorch/prototype/signal.py:87-101`: the residues of one pole. -/
def residuesOf (small : α → Bool) (numerator : List α) (pole : α) (mult : Nat) (factor : List α) : List (Val α) :=
  if mult = 1 then [divVal (polyval numerator (.scalar pole)) (polyval factor (.scalar pole))]
  else
    let fd := polydiv small factor [1, -pole]
    ((residueBlock small [1, -pole] fd.1 (fd.2.getD 0 0) mult numerator).map Val.scalar).reverse

/-- `philtorch/prototype/signal.py:81-103`, `_compute_residues`. -/
def computeResidues (small : α → Bool) (rm : List (α × Nat)) (numerator : List α) : Res (Arr α) := do
  let f ← computeFactors rm false
  stackVals ((rm.zip f.1).flatMap fun x => residuesOf small numerator x.1.1 x.1.2 x.2)

/-- `philtorch/prototype/signal.py:123-126`: the distinct poles with their multiplicities in the chosen order. -/
def orderedRoots (close : α → α → Bool) (order : List α → List Nat) (rtype : RType) (poles : List α) : Res (List (α × Nat)) := do
  let u ← uniqueRoots close rtype poles none
  return (order (u.map fun x => x.1)).map fun i => ((u.getD i (0, 0, false)).1, (u.getD i (0, 0, false)).2.1)

/-- `philtorch/prototype/signal.py:129-131`: every pole as often as its multiplicity says. -/
def repeatPoles (rm : List (α × Nat)) : List α := rm.flatMap fun x => List.replicate x.2 x.1

/-- Apply a function to every entry (the operations on `residues` in `philtorch/prototype/signal.py:132` and `:167`). -/
def Arr.map (f : α → α) : Arr α → Arr α
  | .flat l => .flat (l.map f)
  | .rows l => .rows (l.map fun r => r.map f)

/-- `r * w` for a 1-D tensor `w`: rows with one entry are broadcast (`philtorch/prototype/signal.py:167`). -/
def Arr.mulVec (r : Arr α) (w : List α) : Arr α :=
  match r with
  | .flat l => .flat (l.zipWith (· * ·) w)
  | .rows l => .rows (l.map fun row => if row.length = 1 then w.map fun b => row.getD 0 0 * b else row.zipWith (· * ·) w)

/-- `philtorch/prototype/signal.py:106-132`, `residue`. -/
def residue (eigvals : Nat → (Nat → Nat → α) → List α) (small : α → Bool) (close : α → α → Bool) (order : List α → List Nat)
    (rtype : RType) (b a : List α) : Res (Arr α × List α × List α) := do
  check (0 < b.length ∧ 0 < a.length) "AssertionError: Input must be non-empty arrays."
  let poles ← roots eigvals a
  let kb := if b.length < a.length then ([], b) else polydiv small b a
  let rm ← orderedRoots close order rtype poles
  let residues ← computeResidues small rm kb.2
  return (residues.map fun r => r / a.getD 0 0, repeatPoles rm, kb.1)

/-- `philtorch/prototype/signal.py:135-169`, `residuez`. -/
def residuez (eigvals : Nat → (Nat → Nat → α) → List α) (small : α → Bool) (close : α → α → Bool) (order : List α → List Nat)
    (rtype : RType) (b a : List α) : Res (Arr α × List α × List α) := do
  check (0 < b.length ∧ 0 < a.length) "AssertionError: Input must be non-empty arrays."
  let poles ← roots eigvals a
  let kb := if b.reverse.length < a.reverse.length then ([], b.reverse) else polydiv small b.reverse a.reverse
  let rm ← orderedRoots close order rtype poles
  let residues ← computeResidues small (rm.map fun x => (x.1⁻¹, x.2)) kb.2
  let powers := rm.flatMap fun x => (List.range x.2).map (· + 1)
  let w := (repeatPoles rm).zipWith (fun p n => (-p) ^ n) powers
  return ((residues.mulVec w).map fun r => r / a.reverse.getD 0 0, repeatPoles rm, kb.1.reverse)

end
end Phil.Proto
