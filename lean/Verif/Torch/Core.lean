import Mathlib.Algebra.BigOperators.Intervals
import Mathlib.Algebra.Star.Basic
import Mathlib.Algebra.Field.Basic

/-!
# A small executable semantics of the PyTorch tensor operations used by philtorch

A tensor is a shape together with an element function on index lists.  The element function is required to be
zero on index lists that are not inside the shape, so that two tensors are equal (`Tensor.ext'`) as soon as
their shapes are equal and they agree on all valid indices.

All operations check shapes like PyTorch does and return `Except String`; an `.error` stands for the exception
that PyTorch raises.  Scalars are exact; there is no rounding and there are no dtypes.
-/

namespace Torch

open Finset

/-- Result of a PyTorch call: a value, or the message of the exception. -/
abbrev Res (β : Type) := Except String β

/-- `assert c, msg` / `raise` in the modelled code. -/
def check (c : Prop) [Decidable c] (msg : String) : Res Unit :=
  if c then .ok () else .error msg

/-- `inB l s`: the index list `l` addresses an element of a tensor of shape `s`. -/
def inB : List Nat → List Nat → Bool
  | [], [] => true
  | i :: l, n :: s => decide (i < n) && inB l s
  | _, _ => false

/-- A tensor: shape and element function (zero outside the shape). -/
structure Tensor (α : Type) [Zero α] where
  shape : List Nat
  get : List Nat → α
  canon : ∀ l, inB l shape = false → get l = 0

namespace Tensor

section basic
variable {α : Type} [Zero α]

/-- The tensor of shape `s` whose element at index `l` is `f l`. -/
def ofFn (s : List Nat) (f : List Nat → α) : Tensor α where
  shape := s
  get := fun l => if inB l s then f l else 0
  canon := by intro l h; simp [h]

/-- Number of axes, `x.dim()`. -/
def rank (x : Tensor α) : Nat := x.shape.length

/-- Number of elements, `x.numel()`. -/
def numel (x : Tensor α) : Nat := x.shape.prod

/-- 0-D tensor. -/
def t0 (a : α) : Tensor α := ofFn [] fun _ => a
/-- 1-D tensor with entries `f i`. -/
def t1 (n : Nat) (f : Nat → α) : Tensor α := ofFn [n] fun l => f (l.getD 0 0)
/-- 2-D tensor with entries `f i j`. -/
def t2 (n m : Nat) (f : Nat → Nat → α) : Tensor α :=
  ofFn [n, m] fun l => f (l.getD 0 0) (l.getD 1 0)
/-- 3-D tensor with entries `f i j k`. -/
def t3 (n m p : Nat) (f : Nat → Nat → Nat → α) : Tensor α :=
  ofFn [n, m, p] fun l => f (l.getD 0 0) (l.getD 1 0) (l.getD 2 0)
/-- 4-D tensor. -/
def t4 (n m p q : Nat) (f : Nat → Nat → Nat → Nat → α) : Tensor α :=
  ofFn [n, m, p, q] fun l => f (l.getD 0 0) (l.getD 1 0) (l.getD 2 0) (l.getD 3 0)
/-- 5-D tensor. -/
def t5 (n m p q r : Nat) (f : Nat → Nat → Nat → Nat → Nat → α) : Tensor α :=
  ofFn [n, m, p, q, r] fun l =>
    f (l.getD 0 0) (l.getD 1 0) (l.getD 2 0) (l.getD 3 0) (l.getD 4 0)

end basic

/-- Normalise a possibly negative axis number for a tensor with `r` axes. -/
def wrapDim (r : Nat) (d : Int) : Res Nat :=
  if 0 ≤ d ∧ d < r then .ok d.toNat
  else if d < 0 ∧ -(r : Int) ≤ d then .ok (d + r).toNat
  else .error "IndexError: Dimension out of range"

section views
variable {α : Type} [Zero α]

/-- `x.size(d)`; 0 if there is no such axis (the modelled code always checks `dim()` first). -/
def size (x : Tensor α) (d : Int) : Nat :=
  if 0 ≤ d then x.shape.getD d.toNat 0 else
    if -(x.rank : Int) ≤ d then x.shape.getD (d + x.rank).toNat 0 else 0

/-- `x.unsqueeze(d)`. -/
def unsqueeze (x : Tensor α) (d : Int) : Res (Tensor α) := do
  let p ← wrapDim (x.rank + 1) d
  return ofFn (x.shape.insertIdx p 1) fun l => x.get (l.eraseIdx p)

/-- `x.squeeze(d)`: drops axis `d` if it has size one, otherwise does nothing; a 0-D tensor has the axes `0` and `-1` here. -/
def squeeze (x : Tensor α) (d : Int) : Res (Tensor α) := do
  let p ← wrapDim (max 1 x.rank) d
  if x.shape.getD p 0 = 1 then
    return ofFn (x.shape.eraseIdx p) fun l => x.get (l.insertIdx p 0)
  else return x

/-- `x.flip(d)`. -/
def flip (x : Tensor α) (d : Int) : Res (Tensor α) := do
  let p ← wrapDim x.rank d
  return ofFn x.shape fun l => x.get (l.set p (x.shape.getD p 0 - 1 - l.getD p 0))

/-- Python slice bound: negative values count from the end, the result is clamped to `[0, n]`. -/
def pyBound (n : Nat) (i : Int) : Nat :=
  if i < 0 then (i + n).toNat else min i.toNat n

/-- Start of a Python slice of an axis of size `n`. -/
def pyStart (n : Nat) : Option Int → Nat
  | none => 0
  | some i => pyBound n i

/-- End of a Python slice of an axis of size `n`. -/
def pyStop (n : Nat) : Option Int → Nat
  | none => n
  | some i => pyBound n i

/-- `x[..., start:stop, ...]` along axis `d`. -/
def slice (x : Tensor α) (d : Int) (start stop : Option Int) : Res (Tensor α) := do
  let p ← wrapDim x.rank d
  let n := x.shape.getD p 0
  return ofFn (x.shape.set p (pyStop n stop - pyStart n start)) fun l =>
    x.get (l.set p (l.getD p 0 + pyStart n start))

/-- `x[..., i, ...]` along axis `d` (the axis disappears); negative `i` counts from the end. -/
def select (x : Tensor α) (d : Int) (i : Int) : Res (Tensor α) := do
  let p ← wrapDim x.rank d
  let n := x.shape.getD p 0
  if 0 ≤ i ∧ i < n then
    return ofFn (x.shape.eraseIdx p) fun l => x.get (l.insertIdx p i.toNat)
  else if i < 0 ∧ -(n : Int) ≤ i then
    return ofFn (x.shape.eraseIdx p) fun l => x.get (l.insertIdx p (i + n).toNat)
  else .error "IndexError: index out of range"

/-- `x.unbind(d)`. -/
def unbind (x : Tensor α) (d : Int) : Res (List (Tensor α)) := do
  let p ← wrapDim x.rank d
  return (List.range (x.shape.getD p 0)).map fun j =>
    ofFn (x.shape.eraseIdx p) fun l => x.get (l.insertIdx p j)

/-- `x.transpose(d0, d1)`. -/
def transpose (x : Tensor α) (d0 d1 : Int) : Res (Tensor α) := do
  let p ← wrapDim x.rank d0
  let q ← wrapDim x.rank d1
  return ofFn ((x.shape.set p (x.shape.getD q 0)).set q (x.shape.getD p 0)) fun l =>
    x.get ((l.set p (l.getD q 0)).set q (l.getD p 0))

/-- `x.mT` (also `x.T` on matrices). -/
def mT (x : Tensor α) : Res (Tensor α) := transpose x (-2) (-1)

/-- `x.permute(1, 2, 0)` on 3-D tensors. -/
def permute120 (x : Tensor α) : Res (Tensor α) := do
  check (x.rank = 3) "RuntimeError: permute"
  return ofFn [x.shape.getD 1 0, x.shape.getD 2 0, x.shape.getD 0 0] fun l =>
    x.get [l.getD 2 0, l.getD 0 0, l.getD 1 0]

/-- Index of a multi-index in row-major order: `ravel [s0,s1,..] [i0,i1,..]`. -/
def ravelAux : Nat → List Nat → List Nat → Nat
  | acc, s :: ss, i :: is => ravelAux (acc * s + i) ss is
  | acc, _, _ => acc

def ravel (s l : List Nat) : Nat := ravelAux 0 s l

/-- Coordinates of the flat index `n` in a row-major block of shape `s`. -/
def unravel : List Nat → Nat → List Nat
  | [], _ => []
  | _ :: s, n => (n / s.prod) :: unravel s (n % s.prod)

/-- Resolve a size list in which at most one entry is `-1` (`none`) for `n` elements. -/
def resolve (n : Nat) (sizes : List (Option Nat)) : Res (List Nat) :=
  let p := (sizes.map fun o => o.getD 1).prod
  if sizes.count none = 0 then
    if p = n then .ok (sizes.map fun o => o.getD 1) else .error "RuntimeError: sizes don't multiply up"
  else if sizes.count none = 1 ∧ 0 < p ∧ n % p = 0 then
    .ok (sizes.map fun o => o.getD (n / p))
  else .error "RuntimeError: shape is invalid for input"

/-- `x.unflatten(d, sizes)`; `none` is `-1`. -/
def unflatten (x : Tensor α) (d : Int) (sizes : List (Option Nat)) : Res (Tensor α) := do
  let p ← wrapDim x.rank d
  let ss ← resolve (x.shape.getD p 0) sizes
  return ofFn (x.shape.take p ++ ss ++ x.shape.drop (p + 1)) fun l =>
    x.get (l.take p ++ ravel ss ((l.drop p).take ss.length) :: l.drop (p + ss.length))

/-- `x.flatten(d0, d1)`. -/
def flatten (x : Tensor α) (d0 d1 : Int) : Res (Tensor α) := do
  let p ← wrapDim x.rank d0
  let q ← wrapDim x.rank d1
  check (p ≤ q) "RuntimeError: flatten() has invalid args"
  let ss := (x.shape.drop p).take (q + 1 - p)
  return ofFn (x.shape.take p ++ ss.prod :: x.shape.drop (q + 1)) fun l =>
    x.get (l.take p ++ unravel ss (l.getD p 0) ++ l.drop (p + 1))

/-- `x.unfold(d, size, 1)`: sliding windows along axis `d`, window index appended as last axis. -/
def unfold (x : Tensor α) (d : Int) (size : Nat) : Res (Tensor α) := do
  let p ← wrapDim x.rank d
  let n := x.shape.getD p 0
  check (size ≤ n) "RuntimeError: maximum size for tensor at dimension"
  return ofFn (x.shape.set p (n - size + 1) ++ [size]) fun l =>
    x.get ((l.dropLast).set p (l.getD p 0 + l.getLastD 0))

/-- `torch.roll(x, shifts=-1, dims=d)`. -/
def rollNeg1 (x : Tensor α) (d : Int) : Res (Tensor α) := do
  let p ← wrapDim x.rank d
  return ofFn x.shape fun l => x.get (l.set p ((l.getD p 0 + 1) % x.shape.getD p 0))

/-- `F.pad` of a single axis `d` by `l` on the left and `r` on the right with constant `v`
(negative amounts crop). -/
def padDim (x : Tensor α) (d : Int) (lft rgt : Int) (v : α) : Res (Tensor α) := do
  let p ← wrapDim x.rank d
  let n := x.shape.getD p 0
  check (0 ≤ (n : Int) + lft + rgt ∧ 0 ≤ (n : Int) + lft ∧ 0 ≤ (n : Int) + rgt)
    "RuntimeError: negative output size"
  return ofFn (x.shape.set p ((n : Int) + lft + rgt).toNat) fun l =>
    let c : Int := (l.getD p 0 : Int) - lft
    if 0 ≤ c ∧ c < n then x.get (l.set p c.toNat) else v

/-- `F.pad(x, (l, r), mode="replicate")` on the last axis, `l, r ≥ 0`. -/
def padReplicate (x : Tensor α) (lft rgt : Nat) : Res (Tensor α) := do
  let p ← wrapDim x.rank (-1)
  let n := x.shape.getD p 0
  check (0 < n) "RuntimeError: expected non-empty input for replicate padding"
  return ofFn (x.shape.set p (n + lft + rgt)) fun l =>
    x.get (l.set p (min (l.getD p 0 - lft) (n - 1)))

/-- `F.pad(x, (l, r), mode="reflect")` on the last axis, `l, r ≥ 0`. -/
def padReflect (x : Tensor α) (lft rgt : Nat) : Res (Tensor α) := do
  let p ← wrapDim x.rank (-1)
  let n := x.shape.getD p 0
  check (lft < n ∧ rgt < n) "RuntimeError: Padding size should be less than the input dimension"
  return ofFn (x.shape.set p (n + lft + rgt)) fun l =>
    let c := l.getD p 0
    if c < lft then x.get (l.set p (lft - c))
    else if c < lft + n then x.get (l.set p (c - lft))
    else x.get (l.set p (n - 2 - (c - lft - n)))

/-- `F.pad(x, (l, r), mode="circular")` on the last axis, `l, r ≥ 0`. -/
def padCircular (x : Tensor α) (lft rgt : Nat) : Res (Tensor α) := do
  let p ← wrapDim x.rank (-1)
  let n := x.shape.getD p 0
  check (lft ≤ n ∧ rgt ≤ n) "RuntimeError: Padding value causes wrapping around more than once."
  return ofFn (x.shape.set p (n + lft + rgt)) fun l => x.get (l.set p ((l.getD p 0 + (n - lft)) % n))

/-- `torch.cat([x, y], dim=d)`. -/
def cat2 (x y : Tensor α) (d : Int) : Res (Tensor α) := do
  let p ← wrapDim x.rank d
  check (x.rank = y.rank ∧ x.shape.eraseIdx p = y.shape.eraseIdx p)
    "RuntimeError: Sizes of tensors must match except in dimension"
  let n := x.shape.getD p 0
  return ofFn (x.shape.set p (n + y.shape.getD p 0)) fun l =>
    if l.getD p 0 < n then x.get l else y.get (l.set p (l.getD p 0 - n))

/-- `torch.cat(xs, dim=d)` of a list of tensors. -/
def cat (xs : List (Tensor α)) (d : Int) : Res (Tensor α) :=
  match xs with
  | [] => .error "RuntimeError: expected a non-empty list of Tensors"
  | x :: xs => xs.foldlM (fun acc y => cat2 acc y d) x

/-- `torch.stack(xs, dim=d)`. -/
def stack (xs : List (Tensor α)) (d : Int) : Res (Tensor α) :=
  match xs with
  | [] => .error "RuntimeError: stack expects a non-empty TensorList"
  | x :: xs => do
    let p ← wrapDim (x.rank + 1) d
    check (∀ y ∈ xs, y.shape = x.shape) "RuntimeError: stack expects each tensor to be equal size"
    return ofFn (x.shape.insertIdx p (xs.length + 1)) fun l =>
      ((x :: xs).getD (l.getD p 0) x).get (l.eraseIdx p)

/-- `torch.split_with_sizes(x, [a, b], d)`. -/
def split2 (x : Tensor α) (a b : Nat) (d : Int) : Res (Tensor α × Tensor α) := do
  let p ← wrapDim x.rank d
  check (a + b = x.shape.getD p 0) "RuntimeError: split_with_sizes expects split_sizes to sum exactly"
  let y ← slice x d (some 0) (some a)
  let z ← slice x d (some a) none
  return (y, z)

/-- `x.repeat(k, 1, .., 1)` on a tensor with at least one axis. -/
def repeat0 (x : Tensor α) (k : Nat) : Res (Tensor α) := do
  check (0 < x.rank) "RuntimeError: repeat"
  return ofFn (x.shape.set 0 (k * x.shape.getD 0 0)) fun l =>
    x.get (l.set 0 (l.getD 0 0 % x.shape.getD 0 0))

/-- `x.repeat_interleave(k)` on a 1-D tensor. -/
def repeatInterleave (x : Tensor α) (k : Nat) : Res (Tensor α) := do
  check (x.rank = 1) "RuntimeError: repeat_interleave (only the 1-D case is modelled)"
  return ofFn [x.shape.getD 0 0 * k] fun l => x.get [l.getD 0 0 / k]

/-- Size of a broadcast axis. -/
def bdim (x y : Nat) : Option Nat :=
  if x = y then some y else if x = 1 then some y else if y = 1 then some x else none

def bshapeR : List Nat → List Nat → Option (List Nat)
  | [], ys => some ys
  | x :: xs, [] => some (x :: xs)
  | x :: xs, y :: ys =>
    match bdim x y, bshapeR xs ys with
    | some d, some r => some (d :: r)
    | _, _ => none

/-- `torch.broadcast_shapes`. -/
def bshape (xs ys : List Nat) : Option (List Nat) :=
  (bshapeR xs.reverse ys.reverse).map List.reverse

/-- Index into a tensor of shape `s` that is broadcast to shape `out`, read at `l`. -/
def bidxAux : List Nat → List Nat → List Nat → List Nat
  | n :: s, m :: out, i :: l => (if n = m then i else 0) :: bidxAux s out l
  | _, _, _ => []

def bidx (s out l : List Nat) : List Nat :=
  bidxAux s (out.drop (out.length - s.length)) (l.drop (out.length - s.length))

/-- `x.expand(sizes)` / `x.broadcast_to(sizes)`; `none` is `-1`. -/
def expand (x : Tensor α) (sizes : List (Option Nat)) : Res (Tensor α) := do
  check (x.rank ≤ sizes.length) "RuntimeError: expand: the number of sizes must be at least the rank"
  let o := sizes.length - x.rank
  check (none ∉ sizes.take o) "RuntimeError: expand: -1 in a leading, non-existing dimension"
  let full : List Nat := (sizes.take o).map (fun n => n.getD 0) ++
    List.zipWith (fun (n : Option Nat) (k : Nat) => n.getD k) (sizes.drop o) x.shape
  check (bshape x.shape full = some full) "RuntimeError: The expanded size must match the existing size"
  return ofFn full fun l => x.get (bidx x.shape full l)

end views

/-- The Python idiom `for e in es: h = step(h, e); results.append(h)`: the list of all `h`. -/
def scanM {σ β : Type} (step : σ → β → Res σ) : σ → List β → Res (List σ)
  | _, [] => .ok []
  | h, e :: es => do
    let h' ← step h e
    let rs ← scanM step h' es
    return h' :: rs

section arith
variable {α : Type}

/-- Elementwise function. -/
def map [Zero α] (f : α → α) (x : Tensor α) : Tensor α := ofFn x.shape fun l => f (x.get l)

/-- Elementwise binary function with broadcasting. -/
def zipWith [Zero α] (f : α → α → α) (x y : Tensor α) : Res (Tensor α) :=
  match bshape x.shape y.shape with
  | some s => .ok (ofFn s fun l => f (x.get (bidx x.shape s l)) (y.get (bidx y.shape s l)))
  | none => .error "RuntimeError: The size of tensor a must match the size of tensor b"

/-- `x + y`. -/
def add [AddCommMonoid α] (x y : Tensor α) : Res (Tensor α) := zipWith (· + ·) x y
/-- `x - y`. -/
def sub [AddCommGroup α] (x y : Tensor α) : Res (Tensor α) := zipWith (· - ·) x y
/-- `x * y`. -/
def mul [CommSemiring α] (x y : Tensor α) : Res (Tensor α) := zipWith (· * ·) x y
/-- `x / y` (used only where the divisor is known to be non-zero; IEEE inf/nan are not modelled). -/
def div [Field α] (x y : Tensor α) : Res (Tensor α) := zipWith (· / ·) x y
/-- `-x`. -/
def neg [AddCommGroup α] (x : Tensor α) : Tensor α := map (fun a => -a) x
/-- `x.conj()`, `x.conj_physical()`, `x.conj().resolve_conj()`. -/
def conj [Zero α] [Star α] (x : Tensor α) : Tensor α := map star x

/-- Constant tensor. -/
def full [Zero α] (s : List Nat) (v : α) : Tensor α := ofFn s fun _ => v
/-- `x.new_zeros(s)`. -/
def zeros [Zero α] (s : List Nat) : Tensor α := full s 0
/-- `torch.eye(n)`. -/
def eye [Zero α] [One α] (n : Nat) : Tensor α := t2 n n fun i j => if i = j then 1 else 0

/-- `torch.matmul` of operands with at least two axes each. -/
def matmulCore [Semiring α] (x y : Tensor α) : Res (Tensor α) := do
  let bx := x.shape.take (x.rank - 2)
  let by_ := y.shape.take (y.rank - 2)
  let k := x.size (-1)
  check (k = y.size (-2)) "RuntimeError: mat1 and mat2 shapes cannot be multiplied"
  match bshape bx by_ with
  | some bs =>
    return ofFn (bs ++ [x.size (-2), y.size (-1)]) fun l =>
      let lb := l.take bs.length
      ∑ p ∈ range k,
        x.get (bidx bx bs lb ++ [l.getD bs.length 0, p]) *
        y.get (bidx by_ bs lb ++ [p, l.getD (bs.length + 1) 0])
  | none => .error "RuntimeError: batch dimensions do not broadcast"

/-- `torch.matmul(x, y)`, `x @ y`. -/
def matmul [Semiring α] (x y : Tensor α) : Res (Tensor α) := do
  check (0 < x.rank ∧ 0 < y.rank) "RuntimeError: both arguments to matmul need to be at least 1D"
  let x' ← (if x.rank = 1 then unsqueeze x 0 else pure x)
  let y' ← (if y.rank = 1 then unsqueeze y (-1) else pure y)
  let z ← matmulCore x' y'
  let z ← (if x.rank = 1 then select z (-2) 0 else pure z)
  if y.rank = 1 then select z (-1) 0 else pure z

/-- `torch.linalg.vecdot(x, y)`: conjugates the first argument, multiplies with broadcasting and sums over the last axis (two vectors
must have the same length). -/
def vecdot [CommSemiring α] [StarRing α] (x y : Tensor α) : Res (Tensor α) := do
  check (0 < x.rank ∧ 0 < y.rank ∧ (x.rank = 1 → y.rank = 1 → x.size (-1) = y.size (-1))) "RuntimeError: linalg.vecdot"
  match bshape x.shape y.shape with
  | some s =>
    return ofFn s.dropLast fun l => ∑ k ∈ range (s.getLastD 0),
      star (x.get (bidx x.shape s (l ++ [k]))) * y.get (bidx y.shape s (l ++ [k]))
  | none => .error "RuntimeError: linalg.vecdot: shapes do not broadcast"

/-- `x.cumprod(d)`. -/
def cumprod [CommSemiring α] (x : Tensor α) (d : Int) : Res (Tensor α) := do
  let p ← wrapDim x.rank d
  return ofFn x.shape fun l => ∏ j ∈ range (l.getD p 0 + 1), x.get (l.set p j)

/-- `x.sum(d)`. -/
def sum [AddCommMonoid α] (x : Tensor α) (d : Int) : Res (Tensor α) := do
  let p ← wrapDim x.rank d
  return ofFn (x.shape.eraseIdx p) fun l => ∑ j ∈ range (x.shape.getD p 0), x.get (l.insertIdx p j)

/-- `torch.addmm(b, x, y)`: `b + x @ y` for matrices `x`, `y`, `b` broadcast to the product. -/
def addmm [Semiring α] (b x y : Tensor α) : Res (Tensor α) := do
  check (x.rank = 2 ∧ y.rank = 2) "RuntimeError: addmm expects matrices"
  let z ← matmul x y
  let b' ← expand b (z.shape.map some)
  add b' z

/-- `torch.baddbmm(b, x, y)`: batched, no broadcasting between `x` and `y`. -/
def baddbmm [Semiring α] (b x y : Tensor α) : Res (Tensor α) := do
  check (x.rank = 3 ∧ y.rank = 3) "RuntimeError: batch1 must be a 3D tensor"
  check (x.size 0 = y.size 0) "RuntimeError: batch1 and batch2 must have same number of batches"
  let z ← matmul x y
  let b' ← expand b (z.shape.map some)
  add b' z

/-- `torch.addcmul(b, x, y)`: `b + x * y`. -/
def addcmul [CommSemiring α] (b x y : Tensor α) : Res (Tensor α) := do
  let z ← mul x y
  add b z

end arith

end Tensor
end Torch
