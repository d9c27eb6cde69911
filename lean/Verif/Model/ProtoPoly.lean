import Verif.Torch.Core
import Mathlib.Algebra.BigOperators.Intervals
import Mathlib.Algebra.Field.Defs

/-!
# Model of philtorch/prototype/poly.py

The functions work on 1-D tensors of polynomial coefficients, highest degree first; the model uses lists.  The point at which `polyval`
evaluates, and its result, are 0-D or 1-D tensors (`Val`).  Real coefficients and complex roots have the same type `α`.
-/

namespace Phil.Proto
open Torch Finset

variable {α : Type}

/-- A 0-D or a 1-D tensor (what `polyval` returns, `philtorch/prototype/poly.py:119-126`). -/
inductive Val (α : Type) where
  | scalar (a : α)
  | vec (l : List α)

/-- `torch.nonzero(p)`: the positions of the non-zero entries (`philtorch/prototype/poly.py:16`). -/
def nonzero [Zero α] [DecidableEq α] (p : List α) : List Nat := (List.range p.length).filter fun i => decide (p.getD i 0 ≠ 0)

/-- `philtorch/prototype/poly.py:7-20`, `trim_zeros`. -/
def trimZeros [Zero α] [DecidableEq α] (p : List α) : List α :=
  if p.length = 1 then p
  else match nonzero p with
    | [] => [0]
    | i :: _ => p.drop i

/-- `philtorch/prototype/poly.py:129-143`, `polysub`. -/
def polysub [CommRing α] (a1 a2 : List α) : List α :=
  let diff : Int := (a2.length : Int) - a1.length
  if diff = 0 then a1.zipWith (· - ·) a2
  else if 0 < diff then (List.replicate diff.toNat 0 ++ a1).zipWith (· - ·) a2
  else a1.zipWith (· - ·) (List.replicate (-diff).toNat 0 ++ a2)

/-- `philtorch/prototype/poly.py:166-180`, `polyadd`. -/
def polyadd [CommRing α] (a1 a2 : List α) : List α :=
  let diff : Int := (a2.length : Int) - a1.length
  if diff = 0 then a1.zipWith (· + ·) a2
  else if 0 < diff then (List.replicate diff.toNat 0 ++ a1).zipWith (· + ·) a2
  else a1.zipWith (· + ·) (List.replicate (-diff).toNat 0 ++ a2)

/-- `F.conv1d(x, w, padding=padding)` for one channel (`philtorch/prototype/poly.py:107-112`). -/
def conv1d [CommRing α] (x w : List α) (padding : Nat) : List α :=
  (List.range (x.length + 2 * padding - w.length + 1)).map fun t =>
    ∑ k ∈ range w.length, w.getD k 0 * (List.replicate padding 0 ++ x ++ List.replicate padding 0).getD (t + k) 0

/-- `philtorch/prototype/poly.py:100-116`, `polymul`, after the trimming of lines 101-102. -/
def polymulTrimmed [CommRing α] (a1 a2 : List α) : List α :=
  if a2.length < a1.length then conv1d a1 a2.reverse (a2.length - 1) else conv1d a2 a1.reverse (a1.length - 1)

/-- `philtorch/prototype/poly.py:100-116`, `polymul`. -/
def polymul [CommRing α] [DecidableEq α] (a1 a2 : List α) : List α := polymulTrimmed (trimZeros a1) (trimZeros a2)

/-- `philtorch/prototype/poly.py:90-97`, `polysmul`, with a bound on the depth of the recursion. -/
def polysmulAux [CommRing α] [DecidableEq α] : Nat → List (List α) → Res (List α)
  | 0, _ => .error "RecursionError: maximum recursion depth exceeded"
  | fuel + 1, ps =>
    if ps.length = 1 then .ok (ps.getD 0 [])
    else do
      let a1 ← polysmulAux fuel (ps.take (ps.length / 2))
      let a2 ← polysmulAux fuel (ps.drop (ps.length / 2))
      return polymul a1 a2

/-- `philtorch/prototype/poly.py:90-97`, `polysmul`. -/
def polysmul [CommRing α] [DecidableEq α] (ps : List (List α)) : Res (List α) := polysmulAux (ps.length + 1) ps

/-- `y * x + pv` for a 0-D or 1-D `y`, `x` and a 0-D `pv`, as it occurs in `polyval`: `y` is 0-D or has the shape of `x`
(`philtorch/prototype/poly.py:126`). -/
def hornerStep [CommRing α] (x y : Val α) (pv : α) : Val α :=
  match y, x with
  | .scalar y, .scalar x => .scalar (y * x + pv)
  | .scalar y, .vec x => .vec (x.map fun x => y * x + pv)
  | .vec y, .scalar x => .vec (y.map fun y => y * x + pv)
  | .vec y, .vec x => .vec (y.zipWith (fun y x => y * x + pv) x)

/-- `philtorch/prototype/poly.py:119-126`, `polyval`. -/
def polyval [CommRing α] [DecidableEq α] (p : List α) (x : Val α) : Val α :=
  if (trimZeros p).length = 1 then .vec (trimZeros p)
  else (trimZeros p).tail.foldl (hornerStep x) (.scalar ((trimZeros p).getD 0 0))

/-- `philtorch/prototype/poly.py:150-163`, `polyder` for `m ≥ 0`. -/
def polyderNat [CommRing α] [DecidableEq α] : List α → Nat → List α
  | p, 0 => p
  | p, m + 1 =>
    if (trimZeros p).length = 1 then [0]
    else polyderNat ((trimZeros p).dropLast.zipWith (· * ·) ((List.range ((trimZeros p).length - 1)).map fun i =>
      (((trimZeros p).length - 1 - i : Nat) : α))) m

/-- `philtorch/prototype/poly.py:146-163`, `polyder`. -/
def polyder [CommRing α] [DecidableEq α] (p : List α) (m : Int) : Res (List α) :=
  if m < 0 then .error "ValueError: Order of derivative must be positive (see polyint)" else .ok (polyderNat p m.toNat)

section
variable [Field α] [DecidableEq α]

/-- `philtorch/prototype/poly.py:81-84`: the loop over `k`, started at `k` with `c` rounds to go; returns the entries written to `q` and
the final `r`. -/
def polydivLoop (v : List α) (scale : α) : Nat → Nat → List α → List α × List α
  | 0, _, r => ([], r)
  | c + 1, k, r =>
    let d := scale * r.getD k 0
    let r := r.mapIdx fun i e => if k ≤ i ∧ i < k + v.length then e - d * v.getD (i - k) 0 else e
    let rest := polydivLoop v scale c (k + 1) r
    (d :: rest.1, rest.2)

/-- `philtorch/prototype/poly.py:85-86`; `small e` is `torch.abs(e) < 1e-8`. -/
def dropSmall (small : α → Bool) : List α → List α
  | [] => []
  | [e] => [e]
  | e :: f :: r => if small e then dropSmall small (f :: r) else e :: f :: r

/-- `philtorch/prototype/poly.py:62-87`, `polydiv`.  `1.0 / v[0]` is the field inverse; PyTorch's infinities for a zero divisor are not
modelled. -/
def polydiv (small : α → Bool) (u v : List α) : List α × List α :=
  let u := trimZeros u
  let v := trimZeros v
  let m : Int := (u.length : Int) - 1
  let n : Int := (v.length : Int) - 1
  let qr := polydivLoop v (1 / v.getD 0 0) (m - n + 1).toNat 0 u
  (qr.1 ++ List.replicate ((max (m - n + 1) 1).toNat - qr.1.length) 0, dropSmall small qr.2)

/-- The companion matrix of `philtorch/prototype/poly.py:50-51`, for `p` with `N` entries. -/
def rootsCompanion (p : List α) (i j : Nat) : α :=
  if i = 0 then -(p.getD (j + 1) 0) / p.getD 0 0 else if i = j + 1 then 1 else 0

/-- `philtorch/prototype/poly.py:23-59`, `roots`; `eigvals N A` is `torch.linalg.eigvals` of the matrix `A` of size `N`.
`torch.nonzero(p).squeeze()` is 0-D if exactly one coefficient is not zero, and then `non_zero[-1]` raises. -/
def roots (eigvals : Nat → (Nat → Nat → α) → List α) (p : List α) : Res (List α) :=
  match nonzero p with
  | [] => .ok []
  | [_] => .error "IndexError: invalid index of a 0-dim tensor"
  | i :: j :: rest =>
    let last := (j :: rest).getLast (by simp)
    let trailing := p.length - last - 1
    let p := (p.take (last + 1)).drop i
    let r := if 1 < p.length then eigvals (p.length - 1) (rootsCompanion p) else []
    .ok (if 0 < trailing then r ++ List.replicate trailing 0 else r)

end
end Phil.Proto
