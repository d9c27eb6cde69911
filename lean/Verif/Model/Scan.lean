import Verif.Model.Omp
import Mathlib.Algebra.BigOperators.Intervals

/-!
# Model of the scan kernels

`philtorch/csrc/recur2.cuh`, `lti_recur.cu`, `lti_recur2.cu`, `recur2.cu` (the CUDA ops) and the scans of
`host_recur2.cpp` and `host_recurN.cpp` (compiled, but replaced by the OpenMP kernels in the registration).

A parallel scan may combine neighbouring partial results in any bracketing; `IsScan` says no more than that about
`thrust::inclusive_scan_by_key` and `std::inclusive_scan` (C++17: "generalized noncommutative sum").
Apart from `recurNOp`, the order of the arithmetic is that of the source and no law of arithmetic is assumed (cf. C59).
Reads outside of a buffer are errors.  The `at::parallel_for` loops that only copy are modelled by the copied values.
-/

namespace Scan
open Torch

variable {β : Type}

/-- `Sums op l v`: `v` is the combination of the elements of `l`, in order, with some bracketing (`std::inclusive_scan` and
`thrust::inclusive_scan_by_key`, e.g. `philtorch/csrc/host_recur2.cpp:63`, `philtorch/csrc/lti_recur.cu:81`). -/
inductive Sums (op : β → β → β) : List β → β → Prop
  | one (a : β) : Sums op [a] a
  | join (l r : List β) (u v : β) (hl : Sums op l u) (hr : Sums op r v) : Sums op (l ++ r) (op u v)

/-- The run of positions with equal keys that ends at position `i` (`std::inclusive_scan` and `thrust::inclusive_scan_by_key`,
e.g. `philtorch/csrc/host_recur2.cpp:63`, `philtorch/csrc/lti_recur.cu:81`). -/
def seg (key : Nat → Nat) : Nat → List Nat
  | 0 => [0]
  | i + 1 => if key (i + 1) = key i then seg key i ++ [i + 1] else [i + 1]

/-- An inclusive scan by key over `n` elements: `scan op key n f i` is the result at position `i` (`std::inclusive_scan` and
`thrust::inclusive_scan_by_key`, e.g. `philtorch/csrc/host_recur2.cpp:63`, `philtorch/csrc/lti_recur.cu:81`). -/
abbrev Scanner (β : Type) := (β → β → β) → (Nat → Nat) → Nat → (Nat → β) → Nat → β

/-- Every result of the scan is a combination, in some bracketing, of the run ending there (`std::inclusive_scan` and
`thrust::inclusive_scan_by_key`, e.g. `philtorch/csrc/host_recur2.cpp:63`, `philtorch/csrc/lti_recur.cu:81`). -/
def IsScan (scan : Scanner β) : Prop :=
  ∀ op key n f i, i < n → Sums op ((seg key i).map f) (scan op key n f i)

/-- `inclusive_scan` is a scan in which all keys are equal (`philtorch/csrc/host_recur2.cpp:63`, `:98`,
`philtorch/csrc/host_recurN.cpp:66`, `:173`). -/
def oneKey (_ : Nat) : Nat := 0

/-- Evaluate the transformed input iterator at positions `0 … n-1` (`d`: value elsewhere, never used) (e.g.
`philtorch/csrc/lti_recur.cu:76-88`). -/
def collect (d : β) (n : Nat) (f : Nat → Res β) : Res (Nat → β) := do
  let l ← (List.range n).mapM f
  return fun i => l.getD i d

/-- `p[i]` for a buffer of the given length (e.g. `philtorch/csrc/lti_recur.cu:42-55`). -/
def load {α : Type} (p : Nat → α) (len i : Nat) : Res α := if i < len then .ok (p i) else .error "read outside of A"

end Scan

namespace Phil.Cuda
open Torch Torch.Tensor Scan

variable {α : Type} [Zero α] [Add α] [Mul α]

/-- `philtorch/csrc/recur2.cuh:4-5`, `sqm2_pair` and `host_recur2.cpp:27-28`: a two by two matrix and a vector. -/
structure Sq2 (α : Type) where
  a : α
  b : α
  c : α
  d : α
  e : α
  f : α

/-- All entries zero (`philtorch/csrc/host_recur2.cpp:43-74`). -/
def Sq2.zero : Sq2 α := ⟨0, 0, 0, 0, 0, 0⟩

/-- `philtorch/csrc/recur2.cuh:7-21` and `philtorch/csrc/host_recur2.cpp:30-41`, `recur2_binary_op`. -/
def recur2Op (a b : Sq2 α) : Sq2 α :=
  ⟨b.a * a.a + b.b * a.c, b.a * a.b + b.b * a.d, b.c * a.a + b.d * a.c, b.c * a.b + b.d * a.d,
    b.a * a.e + b.b * a.f + b.e, b.c * a.e + b.d * a.f + b.f⟩

/-- `philtorch/csrc/lti_recur.cu:19-31`, `recur_binary_op`. -/
def recurOp (a b : α × α) : α × α := (a.1 * b.1, a.2 * b.1 + b.2)

/-- `philtorch/csrc/recur2.cuh:79-83`, `index2key`. -/
def index2key (nSteps i : Nat) : Nat := i / nSteps

/-- `philtorch/csrc/lti_recur.cu:42-55`, `lti_batch_recur_input_op`. -/
def ltiBatchRecurInput (decays : Nat → Res α) (nSteps i : Nat) (x : α) : Res (α × α) :=
  if 0 < i % nSteps then do
    let d ← decays (i / nSteps)
    return (d, x)
  else return (0, x)

/-- `philtorch/csrc/lti_recur.cu:57-69`, `lti_shared_recur_input_op`. -/
def ltiSharedRecurInput (decay : α) (nSteps i : Nat) (x : α) : Res (α × α) :=
  if 0 < i % nSteps then return (decay, x) else return (0, x)

/-- `philtorch/csrc/lti_recur.cu:113-158`, `lti_recur_cuda_impl` with `lti_batch_linear_recurrence` (`:71-90`) and
`lti_shared_linear_recurrence` (`:92-111`).  The checks on scalar types have no counterpart. -/
def ltiRecurCuda (scan : Scanner (α × α)) (a zi x : Tensor α) : Res (Tensor α) := do
  check (a.rank ≤ 1) "A must be a vector or a scalar"
  check (zi.rank = 1) "zi must be a vector"
  check (2 ≤ x.rank) "IndexError: x.size(1)"
  let nSteps := x.size 1 + 1
  let nBatches := x.size 0
  let z1 ← unsqueeze zi 1
  let xc ← cat2 z1 x 1
  let total := nBatches * nSteps
  let elems ← (if a.rank = 1 ∧ a.numel = nBatches then
      collect (0, 0) total fun i => do
        let xi ← load (data xc) xc.numel i
        ltiBatchRecurInput (load (data a) a.numel) nSteps i xi
    else do
      check (a.numel = 1) "RuntimeError: a Tensor with more than one element cannot be converted to Scalar"
      collect (0, 0) total fun i => do
        let xi ← load (data xc) xc.numel i
        ltiSharedRecurInput (data a 0) nSteps i xi)
  let out := scan recurOp (index2key nSteps) total elems
  slice (ofData xc.shape fun i => (out i).2) 1 (some 1) (some (nSteps : Int))

/-- `x.view({-1, k})`: the elements in memory order, `k` in each row (`philtorch/csrc/lti_recur2.cu:84`,
`philtorch/csrc/recur2.cu:86`, `:88`). -/
def viewRows (x : Tensor α) (k : Nat) : Res (Tensor α) := do
  check (x.numel % k = 0) "RuntimeError: shape is invalid for input"
  return ofData [x.numel / k, k] (data x)

/-- `out.t().reshape({n_batches, n_steps, 2}).slice(1, 1, n_steps)` (`lti_recur2.cu:109-112`, `recur2.cu:113-116`), where
`out` has the shape `[2, rows]` and was filled by the scan. -/
def unpack2 (rows total nBatches nSteps : Nat) (out : Nat → Sq2 α) : Res (Tensor α) := do
  let o := ofData [2, rows] fun j => if j < total then (out j).e else (out (j - total)).f
  let ot ← transpose o 0 1
  check (ot.numel = nBatches * nSteps * 2) "RuntimeError: shape is invalid for input"
  slice (ofData [nBatches, nSteps, 2] (data ot)) 1 (some 1) (some (nSteps : Int))

/-- `philtorch/csrc/recur2.cuh:48-62`, `lti_batch_A_input_op`. -/
def ltiBatchAInput (A : Nat → Res α) (nSteps i : Nat) (x0 x1 : α) : Res (Sq2 α) :=
  if 0 < i % nSteps then do
    let idx := i / nSteps * 4
    let a ← A idx
    let b ← A (idx + 1)
    let c ← A (idx + 2)
    let d ← A (idx + 3)
    return ⟨a, b, c, d, x0, x1⟩
  else return ⟨0, 0, 0, 0, x0, x1⟩

/-- `philtorch/csrc/recur2.cuh:64-77`, `lti_share_A_input_op`. -/
def ltiShareAInput (A : Nat → Res α) (nSteps i : Nat) (x0 x1 : α) : Res (Sq2 α) :=
  if 0 < i % nSteps then do
    let a ← A 0
    let b ← A 1
    let c ← A 2
    let d ← A 3
    return ⟨a, b, c, d, x0, x1⟩
  else return ⟨0, 0, 0, 0, x0, x1⟩

/-- `philtorch/csrc/recur2.cuh:33-46`, `share_A_input_op`. -/
def shareAInput (A : Nat → Res α) (nSteps i : Nat) (x0 x1 : α) : Res (Sq2 α) := do
  let idx := i % nSteps
  let a ← A idx
  let b ← A (idx + nSteps)
  let c ← A (idx + nSteps * 2)
  let d ← A (idx + nSteps * 3)
  return ⟨a, b, c, d, x0, x1⟩

/-- The zip iterator of `philtorch/csrc/recur2.cu:34-36`. -/
def batchAInput (A : Nat → Res α) (total i : Nat) (x0 x1 : α) : Res (Sq2 α) := do
  let a ← A i
  let b ← A (total + i)
  let c ← A (total * 2 + i)
  let d ← A (total * 3 + i)
  return ⟨a, b, c, d, x0, x1⟩

/-- The two rows of the input, `x[i]` and `(x + total_steps)[i]` (`philtorch/csrc/lti_recur2.cu:18-40`,
`philtorch/csrc/recur2.cu:18-41`). -/
def zip2 (xc : Tensor α) (total : Nat) (f : Nat → α → α → Res (Sq2 α)) (i : Nat) : Res (Sq2 α) := do
  let x0 ← load (data xc) xc.numel i
  let x1 ← load (data xc) xc.numel (total + i)
  f i x0 x1

/-- `philtorch/csrc/lti_recur2.cu:66-113`, `lti_mat_recur_second_order_cuda_impl` with `lti_batch_mat_recur_second_order`
(`:18-40`) and `lti_share_mat_recur_second_order` (`:42-64`). -/
def ltiRecur2Cuda (scan : Scanner (Sq2 α)) (A zi x : Tensor α) : Res (Tensor α) := do
  check (A.rank = 2 ∨ A.rank = 3) "A must be a 2D or 3D tensor"
  check (3 ≤ x.rank) "IndexError: x.size(2)"
  check (x.size 2 = 2) "Input x must have a last dimension of size 2"
  check (A.size (-1) = 2 ∧ A.size (-2) = 2) "Last two dimensions of A must be of size 2"
  let nSteps := x.size 1 + 1
  let nBatches := x.size 0
  let z1 ← unsqueeze zi 1
  let xz ← cat2 z1 x 1
  let xv ← viewRows xz 2
  let xc ← transpose xv 0 1
  let total := nBatches * nSteps
  let elems ← (if A.rank = 3 then
      collect Sq2.zero total (zip2 xc total (ltiBatchAInput (load (data A) A.numel) nSteps))
    else
      collect Sq2.zero total (zip2 xc total (ltiShareAInput (load (data A) A.numel) nSteps)))
  unpack2 (xv.size 0) total nBatches nSteps (scan recur2Op (index2key nSteps) total elems)

/-- `philtorch/csrc/recur2.cu:69-117`, `mat_recur_second_order_cuda_impl` with `batch_mat_recur_second_order` (`:18-41`) and
`share_mat_recur_second_order` (`:43-67`). -/
def recur2Cuda (scan : Scanner (Sq2 α)) (A zi x : Tensor α) : Res (Tensor α) := do
  check (A.rank = 3 ∨ A.rank = 4) "A must be a 3D or 4D tensor"
  check (3 ≤ x.rank) "IndexError: x.size(2)"
  check (x.size 2 = 2) "Input x must have a last dimension of size 2"
  check (A.size (-1) = 2 ∧ A.size (-2) = 2) "Last two dimensions of A must be of size 2"
  let nSteps := x.size 1 + 1
  let nBatches := x.size 0
  let Ap ← padDim A (-3) ((1 : Nat) : Int) 0 0
  let Av ← viewRows Ap 4
  let Ac ← transpose Av 0 1
  let z1 ← unsqueeze zi 1
  let xz ← cat2 z1 x 1
  let xv ← viewRows xz 2
  let xc ← transpose xv 0 1
  let total := nBatches * nSteps
  let elems ← (if A.rank = 4 then
      collect Sq2.zero total (zip2 xc total (batchAInput (load (data Ac) Ac.numel) total))
    else
      collect Sq2.zero total (zip2 xc total (shareAInput (load (data Ac) Ac.numel) nSteps)))
  unpack2 (xv.size 0) total nBatches nSteps (scan recur2Op (index2key nSteps) total elems)

/-- One entry of the buffer of `philtorch/csrc/host_recur2.cpp:43-74` (`off = i * 4`) and `:76-109`
(`off = i % n_steps * 4`). -/
def hostElem2 (A x : Nat → Res α) (off i : Nat) : Res (Sq2 α) := do
  let a ← A off
  let b ← A (off + 1)
  let c ← A (off + 2)
  let d ← A (off + 3)
  let e ← x (i * 2)
  let f ← x (i * 2 + 1)
  return ⟨a, b, c, d, e, f⟩

/-- `philtorch/csrc/host_recur2.cpp:111-160`, `mat_recur_second_order_cpu_impl` with `host_batch_mat_recur_second_order`
(`:43-74`) and `host_share_mat_recur_second_order` (`:76-109`).  Not registered for any op. -/
def recur2HostScan (scan : Scanner (Sq2 α)) (A zi x : Tensor α) : Res (Tensor α) := do
  check (A.rank = 3 ∨ A.rank = 4) "A must be a 3D or 4D tensor"
  check (3 ≤ x.rank) "IndexError: x.size(2)"
  check (x.size 2 = 2) "Input x must have a last dimension of size 2"
  check (A.size (-1) = 2 ∧ A.size (-2) = 2) "Last two dimensions of A must be of size 2"
  let nSteps := x.size 1 + 1
  let nBatches := x.size 0
  let Ac ← padDim A (-3) ((1 : Nat) : Int) 0 0
  let z1 ← unsqueeze zi 1
  let xc ← cat2 z1 x 1
  let total := nSteps * nBatches
  let elems ← (if A.rank = 4 then
      collect Sq2.zero total fun i => hostElem2 (load (data Ac) Ac.numel) (load (data xc) xc.numel) (i * 4) i
    else
      collect Sq2.zero total fun i => hostElem2 (load (data Ac) Ac.numel) (load (data xc) xc.numel) (i % nSteps * 4) i)
  let out := scan recur2Op oneKey total elems
  let o := ofData xc.shape fun j => if j % 2 = 0 then (out (j / 2)).e else (out (j / 2)).f
  check (o.numel = nBatches * nSteps * 2) "RuntimeError: shape is invalid for input"
  slice (ofData [nBatches, nSteps, 2] (data o)) 1 (some 1) (some (nSteps : Int))

end Phil.Cuda

namespace Phil.Cuda
open Torch Torch.Tensor Scan

variable {α : Type} [CommRing α]

/-- `philtorch/csrc/host_recurN.cpp:12-42`, `recurN_binary_op` on arrays of `n * n + n` entries: the matrix by rows, then
the vector.  The reductions are sums (`std::transform_reduce` and `valarray::sum` may reorder). -/
def recurNOp (n : Nat) (a b : Nat → α) (i : Nat) : α :=
  if n * n + n ≤ i then 0
  else if i / n = n then b i + ∑ k ∈ Finset.range n, b (i % n * n + k) * a (n * n + k)
  else ∑ k ∈ Finset.range n, a (i % n + k * n) * b (i / n * n + k)

/-- `std::copy(p + off, p + off + len, …)` (`philtorch/csrc/host_recurN.cpp:56`, `:156`, `:159`). -/
def copyFrom (p : Nat → α) (plen off len : Nat) : Res (Nat → α) :=
  if off + len ≤ plen then .ok fun k => if k < len then p (off + k) else 0 else .error "read outside of A"

/-- `philtorch/csrc/host_recurN.cpp:188-234`, `mat_recur_N_order_cpu_impl` with `host_batch_mat_recur_N_order` (`:44-79`) and
`host_share_mat_recur_N_order` (`:142-186`).  Not registered for any op. -/
def recurNHostScan (scan : Scanner (Nat → α)) (A zi x : Tensor α) : Res (Tensor α) := do
  check (A.rank = 3 ∨ A.rank = 4) "A must be a 3D or 4D tensor"
  check (3 ≤ x.rank) "IndexError: x.size(2)"
  check (x.size 2 = A.size (-1)) "Last dimension of x must match last dimension of A"
  check (A.size (-1) = A.size (-2)) "Last two dimensions of A must be equal"
  let nSteps := x.size 1 + 1
  let nBatches := x.size 0
  let order := A.size (-1)
  let Ac ← padDim A (-3) ((1 : Nat) : Int) 0 0
  let z1 ← unsqueeze zi 1
  let xc ← cat2 z1 x 1
  let total := nSteps * nBatches
  let elems ← (if A.rank = 4 then do
      let xu ← unsqueeze xc (-2)
      let Ax ← cat2 Ac xu (-2)
      collect (fun _ => 0) total fun i => copyFrom (data Ax) Ax.numel (i * (order * order + order)) (order * order + order)
    else
      collect (fun _ => 0) total fun i => do
        let m ← copyFrom (data Ac) Ac.numel (i % nSteps * (order * order)) (order * order)
        let v ← copyFrom (data xc) xc.numel (i * order) order
        return fun k => if k < order * order then m k else v (k - order * order))
  let out := scan (recurNOp order) oneKey total elems
  let o := ofData xc.shape fun j => out (j / order) (order * order + j % order)
  slice o 1 (some 1) (some (nSteps : Int))

end Phil.Cuda
